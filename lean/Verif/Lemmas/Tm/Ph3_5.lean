import Verif.Lemmas.Tm.Comp.Region3

/-! T and v from (p, h) in region 3, above 373.946 degC, part 5 (generated subdivisions, checked in the kernel) -/

namespace If97.Tm
set_option maxRecDepth 100000

def ph3_t28 : Tr4 := .y (.x (.y (.y (.y (.x (.x (.x .b .b) (.y .d .b)) .d) (.x .b (.y .d .b))) (.x .b .b)) (.x (.y (.x .b .b) .b) .b)) (.y (.y .d (.x (.y .d .b) .d)) (.y (.x (.x .b .b) (.y (.x .b .d) (.x .b .b))) (.y (.x .b .b) (.x .b .b))))) (.x (.y (.y .b (.x .b .b)) (.y (.x .b .b) (.x .b .b))) (.y (.y (.x .b (.x .b .b)) (.y (.x .b .b) .b)) (.y (.x .b .b) .b)))
theorem ph3_c28 : chk 500000 250309 5300000 4000000 3249073 4000000 (vPh3 500000 250309 ph3_t28) = true := by decide +kernel
def ph3_t29 : Tr4 := .y (.x (.y .d (.y .d (.x (.y (.x .b .d) .b) (.x (.y .d .b) .d)))) .d) (.x (.y (.y (.x (.x .b .b) .b) (.x .b .b)) (.y .b (.y .b (.x .b .b)))) (.y (.y (.x (.y .d (.x .b .d)) .d) (.y (.x .b (.x .d .d)) (.x .b .b))) (.x (.y .b (.y (.x .b .c) .c)) (.y (.y (.x .b .c) .c) (.y (.x .c .a) .a)))))
theorem ph3_c29 : chk 500000 250309 6300000 4000000 3249073 4000000 (vPh3 500000 250309 ph3_t29) = true := by decide +kernel
def ph3_t30 : Tr4 := .y (.y .b (.x .b .b)) (.y (.y .b (.x .b .b)) (.x (.y .b .b) (.y (.x .b .b) (.x .b (.x (.y .b .c) .c)))))
theorem ph3_c30 : chk 500000 250309 10100000 8000000 7249073 8000000 (vPh3 500000 250309 ph3_t30) = true := by decide +kernel
def ph3_t31 : Tr4 := .y (.x (.y .b .b) (.y (.y .b .b) (.y .b (.x .b (.y .b .c))))) (.y (.x (.y .b (.x .b .c)) (.y (.x (.y .b .c) .c) (.x .c .a))) (.x (.y (.x .c (.y .c .a)) (.x (.y (.x .c .a) .a) .a)) .a))
theorem ph3_c31 : chk 500000 250309 11100000 8000000 7249073 8000000 (vPh3 500000 250309 ph3_t31) = true := by decide +kernel

end If97.Tm
