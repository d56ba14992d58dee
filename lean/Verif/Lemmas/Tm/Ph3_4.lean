import Verif.Lemmas.Tm.Comp.Region3

/-! T and v from (p, h) in region 3, above 373.946 degC, part 4 (generated subdivisions, checked in the kernel) -/

namespace If97.Tm
set_option maxRecDepth 100000

def ph3_t24 : Tr4 := .x (.y (.y .b (.y .b .b)) (.y (.x (.y .b .b) .b) .b)) (.y .b (.y .b (.x .b .b)))
theorem ph3_c24 : chk 400000 250309 4400000 4000000 7249073 8000000 (vPh3 400000 250309 ph3_t24) = true := by decide +kernel
def ph3_t25 : Tr4 := .y (.y .b (.x (.y .b .b) .b)) (.y (.x .b (.y .b (.x .b (.y .b (.x (.y .b .c) .c))))) (.y (.x (.y .b (.x .b (.y .b .c))) (.x (.y (.x (.y .b .b) .c) .c) .c)) (.x (.x (.y (.x .b .c) .c) .c) (.y .a .a))))
theorem ph3_c25 : chk 400000 250309 8400000 8000000 7749691 8000000 (vPh3 400000 250309 ph3_t25) = true := by decide +kernel
def ph3_t26 : Tr4 := .y (.y .b (.x .b .b)) (.x (.y .b (.x .b .b)) (.y (.x .b (.y .b (.x .b (.y .b .c)))) (.x (.y .b (.x (.y .b (.x .b .c)) .c)) (.y (.x (.y (.x .b .c) .c) .c) (.x .c .a)))))
theorem ph3_c26 : chk 400000 250309 9200000 8000000 15249073 16000000 (vPh3 400000 250309 ph3_t26) = true := by decide +kernel
def ph3_t27 : Tr4 := .y (.x (.y (.x (.y .b (.x .b (.y .b .c))) (.y (.x .b (.y (.x .b .c) .c)) (.x .c .c))) (.x (.y (.x (.y (.x .b .c) .c) .c) .c) .a)) (.y (.x (.y (.x .c .a) .a) .a) .a)) (.y (.x (.y .a .a) .a) (.y .a .a))
theorem ph3_c27 : chk 400000 250309 9200000 8000000 15749691 16000000 (vPh3 400000 250309 ph3_t27) = true := by decide +kernel

end If97.Tm
