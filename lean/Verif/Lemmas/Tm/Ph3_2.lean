import Verif.Lemmas.Tm.Comp.Region3

/-! T and v from (p, h) in region 3, above 373.946 degC, part 2 (generated subdivisions, checked in the kernel) -/

namespace If97.Tm
set_option maxRecDepth 100000

def ph3_t14 : Tr4 := .y (.x (.y .b .b) (.y .b .b)) (.x (.y (.x .b .b) (.x (.y .b .b) .b)) (.y .b (.x .b .b)))
theorem ph3_c14 : chk 300000 250309 4900000 8000000 15249073 16000000 (vPh3 300000 250309 ph3_t14) = true := by decide +kernel
def ph3_t15 : Tr4 := .y (.y (.x (.y (.x (.x .b .b) .b) (.x .b .b)) .b) (.x (.y .b .b) .b)) (.y (.x (.y .b .b) (.y .b (.x .b .b))) (.x (.y (.x .b (.y .b .b)) (.x (.y .b .b) (.y .b .b))) (.y (.y (.x .b .b) (.x .b .b)) (.y (.x .b .b) (.x .b .b)))))
theorem ph3_c15 : chk 300000 250309 4900000 8000000 15749691 16000000 (vPh3 300000 250309 ph3_t15) = true := by decide +kernel
def ph3_t16 : Tr4 := .x (.y (.y (.x .d (.x .d (.y .d (.y .d .d)))) (.x (.y .d (.x (.y .d (.x .d .b)) .b)) (.y (.x (.y .d .b) .b) .b))) (.y (.x (.y .b .b) .b) (.x .b .b))) (.y (.y (.x (.y (.x .d (.y .d .b)) .b) .b) (.x .b .b)) (.y (.x .b .b) .b))
theorem ph3_c16 : chk 300000 250309 2900000 4000000 7249073 8000000 (vPh3 300000 250309 ph3_t16) = true := by decide +kernel
def ph3_t17 : Tr4 := .x (.y (.y (.y (.x .b .b) .b) (.y .b .b)) (.y (.y (.x .b .b) (.x (.y .b .b) (.y .b .b))) (.y (.x (.y .b .b) (.y .b .b)) (.x (.y (.x .b .b) .b) .b)))) (.y (.y .b (.y .b (.x .b .b))) (.y (.y (.x .b .b) (.x .b (.y .b .b))) (.y (.x .b .b) .b)))
theorem ph3_c17 : chk 300000 250309 2900000 4000000 7749691 8000000 (vPh3 300000 250309 ph3_t17) = true := by decide +kernel
def ph3_t18 : Tr4 := .y (.x .d (.y .d (.y .d .d))) (.x (.y (.x .d (.y .d (.y .d .d))) (.y (.x (.y .d (.x .d (.y .d .b))) (.y (.x (.y .d .b) .b) .b)) (.x (.y (.x (.y .d .b) .b) .b) .b))) (.y (.y (.x .d (.y (.x .d .b) .b)) (.x (.y (.x .d .b) .b) .b)) (.y (.x .b .b) .b)))
theorem ph3_c18 : chk 400000 250309 3600000 4000000 3249073 4000000 (vPh3 400000 250309 ph3_t18) = true := by decide +kernel

end If97.Tm
