import Verif.Lemmas.Tm.Comp.Region3

/-! T and v from (p, h) in region 3, above 373.946 degC, part 3 (generated subdivisions, checked in the kernel) -/

namespace If97.Tm
set_option maxRecDepth 100000

def ph3_t19 : Tr4 := .x (.y (.y .d .d) (.y (.x .d (.x (.y .d .b) (.y (.y (.x .d .b) .b) .b))) (.x (.y (.x .d .b) .b) (.x .b .b)))) (.y (.y (.x .d (.y (.x .d (.y (.x .d .b) .b)) (.x (.x (.y .d .b) .b) .b))) (.x (.x (.y .d (.y (.x .d .b) .b)) (.y (.x (.y .d .b) .b) .b)) (.y .b .b))) (.y (.x (.y (.x .b .b) (.x .b .b)) (.y .b .b)) (.x (.y .b .b) .b)))
theorem ph3_c19 : chk 400000 250309 4400000 4000000 6247837 8000000 (vPh3 400000 250309 ph3_t19) = true := by decide +kernel
def ph3_t20 : Tr4 := .x (.y (.y (.x .b .b) (.x .b (.y .b .b))) (.x (.y .b .b) (.y (.y .b .b) .b))) (.y (.y (.y .b .b) (.x (.y .b .b) .b)) (.y (.x (.y .b .b) .b) .b))
theorem ph3_c20 : chk 400000 250309 4400000 4000000 6748455 8000000 (vPh3 400000 250309 ph3_t20) = true := by decide +kernel
def ph3_t21 : Tr4 := .x (.y (.y (.x .b .b) (.x .b .b)) (.y (.x .b (.y .b .b)) (.y .b .b))) (.y (.x (.y .b .b) (.y .b .b)) (.y (.x (.y .b .b) (.y .b .b)) (.y .b .b)))
theorem ph3_c21 : chk 400000 250309 3600000 4000000 7249073 8000000 (vPh3 400000 250309 ph3_t21) = true := by decide +kernel
def ph3_t22 : Tr4 := .y (.y .b (.y (.x .b (.y .b .b)) (.x (.y .b .b) (.y (.x .b .b) .b)))) (.y (.y (.y (.x .b .b) (.x .b .b)) (.y .b .b)) (.y (.x .b (.y .b .b)) (.y (.x .b .b) .b)))
theorem ph3_c22 : chk 400000 250309 6800000 8000000 7749691 8000000 (vPh3 400000 250309 ph3_t22) = true := by decide +kernel
def ph3_t23 : Tr4 := .y (.y .b (.y (.y .b (.x .b .b)) (.x (.y .b .b) (.y .b .b)))) (.y (.y (.y .b .b) .b) (.x (.y (.y .b .b) (.y .b .b)) (.y .b (.x .b (.y .b (.x .b .c))))))
theorem ph3_c23 : chk 400000 250309 7600000 8000000 7749691 8000000 (vPh3 400000 250309 ph3_t23) = true := by decide +kernel

end If97.Tm
