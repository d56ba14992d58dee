import Verif.Lemmas.Tm.Comp.Region3

/-! T and v from (p, h) in region 3, above 373.946 degC, part 1 (generated subdivisions, checked in the kernel) -/

namespace If97.Tm
set_option maxRecDepth 100000

def ph3_t9 : Tr4 := .y (.x (.y (.x (.y (.x .b .b) (.x .b .b)) (.y .b .b)) (.x (.y (.x .b .b) .b) .b)) (.y (.x (.y .b .b) .b) (.x .b .b))) (.x (.y .b .b) (.y .b .b))
theorem ph3_c9 : chk 200000 250309 3800000 8000000 15749691 16000000 (vPh3 200000 250309 ph3_t9) = true := by decide +kernel
def ph3_t10 : Tr4 := .x (.y .d .d) (.y .d (.x (.y .d .d) (.y .d (.y .d (.x .d (.y .d (.x .d .b)))))))
theorem ph3_c10 : chk 300000 250309 1300000 2000000 3249073 4000000 (vPh3 300000 250309 ph3_t10) = true := by decide +kernel
def ph3_t11 : Tr4 := .x (.y .d (.y .d (.x .d (.y (.x .d (.y .d .d)) (.x (.y .d (.x .d .b)) (.y (.x (.y .d .b) .b) .b)))))) (.y (.y .d .d) (.y (.x (.y .d (.x .d (.y .d (.x .d .b)))) (.y (.x .d (.y (.x .d .b) .b)) (.x (.y .b .b) .b))) (.x (.y (.x (.y (.x .d .b) .b) (.y .b .b)) (.x .b .b)) (.y .b .b))))
theorem ph3_c11 : chk 300000 250309 2300000 4000000 7249073 8000000 (vPh3 300000 250309 ph3_t11) = true := by decide +kernel
def ph3_t12 : Tr4 := .y (.x (.y (.x .d (.y (.x .d (.y .d .b)) (.x (.y .d .b) .b))) (.x (.y (.x (.x .d .d) .b) (.x .b .b)) (.y (.x .b .b) .b))) (.y (.x (.y (.x .b .b) .b) .b) (.x .b .b))) (.x (.y (.x (.y (.x .b .b) .b) (.y .b .b)) (.x (.y .b .b) .b)) (.y .b (.x (.y .b .b) (.y .b (.y .b .b)))))
theorem ph3_c12 : chk 300000 250309 4300000 8000000 15249073 16000000 (vPh3 300000 250309 ph3_t12) = true := by decide +kernel
def ph3_t13 : Tr4 := .y (.x (.y (.x .b (.y .b (.x .b .b))) (.x (.x .b (.y .b .b)) (.y (.x .b .b) .b))) (.y (.x (.y (.x .b (.y .b .b)) (.x (.y .b .b) .b)) (.y (.y .b .b) (.x (.y .b .b) (.y .b .b)))) (.y (.x (.y .b .b) (.y .b .b)) (.x (.y .b .b) .b)))) (.y (.x (.y (.x .b .b) .b) (.y .b .b)) (.x .b (.y .b (.x .b (.y .b .b)))))
theorem ph3_c13 : chk 300000 250309 4300000 8000000 15749691 16000000 (vPh3 300000 250309 ph3_t13) = true := by decide +kernel

end If97.Tm
