import Verif.Lemmas.Tm.Comp.Region3

/-! T and v from (p, h) in region 3, above 373.946 degC, part 6 (generated subdivisions, checked in the kernel) -/

namespace If97.Tm
set_option maxRecDepth 100000

def ph3_t32 : Tr4 := .y (.x (.y .b (.x .b (.y .b (.x .b (.y .b .c))))) (.y .b (.x (.y .b .c) (.y .c .c)))) (.y (.x (.y (.x (.x .b (.y .b .c)) .c) (.x .c .a)) (.y (.x .a .a) (.x .a .a))) (.x (.y (.x .a .a) .a) (.y .a .a)))
theorem ph3_c32 : chk 500000 250309 19700000 16000000 15249073 16000000 (vPh3 500000 250309 ph3_t32) = true := by decide +kernel
def ph3_t33 : Tr4 := .y (.y (.x (.x (.y .b .c) .c) (.y (.x .c .a) .a)) (.x (.y (.x .c .a) .a) .a)) (.x (.y .a .a) .a)
theorem ph3_c33 : chk 500000 250309 20700000 16000000 15249073 16000000 (vPh3 500000 250309 ph3_t33) = true := by decide +kernel
def ph3_t34 : Tr4 := .y (.x (.y .a .a) (.y (.x .a (.x .a .a)) (.x .a .a))) (.y (.x .a .a) .a)
theorem ph3_c34 : chk 500000 250309 10100000 8000000 15749691 16000000 (vPh3 500000 250309 ph3_t34) = true := by decide +kernel
def ph3_t35 : Tr4 := .y (.x (.y .a (.x (.y .a .a) (.y .a (.y .a .a)))) (.y (.x .a .a) (.x .a .a))) (.y (.x (.y (.x (.y .a .a) (.y .a .a)) (.y (.x .a .a) .a)) (.x (.y .a .a) (.y .a .a))) (.y (.y .a (.x .a .a)) (.x .a (.x .a .a))))
theorem ph3_c35 : chk 500000 250309 11100000 8000000 7749691 8000000 (vPh3 500000 250309 ph3_t35) = true := by decide +kernel
def ph3_t36 : Tr4 := .x (.y (.x (.y (.x .b (.y .b (.y .b .c))) (.y (.x (.y .b .c) .c) (.x .c .a))) (.y (.y (.x .b .c) (.x .c (.y .c .a))) .a)) (.x (.y .a .a) .a)) (.y (.y (.x (.y (.x (.y .c .a) .a) .a) .a) .a) .a)
theorem ph3_c36 : chk 500000 250309 6300000 4000000 7249073 8000000 (vPh3 500000 250309 ph3_t36) = true := by decide +kernel

end If97.Tm
