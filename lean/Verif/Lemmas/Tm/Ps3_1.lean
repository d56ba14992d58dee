import Verif.Lemmas.Tm.Comp.Region3

/-! T and v from (p, s) in region 3, above 373.946 degC, part 1 (generated subdivisions, checked in the kernel) -/

namespace If97.Tm
set_option maxRecDepth 100000

def ps3_t8 : Tr4 := .x (.y (.y (.x .d (.x .d (.y .d (.y .d .d)))) (.x (.y .d (.x (.y .d (.x .d .b)) (.y (.x .d .b) .b))) (.y (.x (.y .d .b) .b) (.x .b .b)))) (.y (.x (.y (.x (.y .b .b) .b) .b) (.y .b .b)) (.y (.x .b .b) .b))) (.y (.y (.x (.y (.x .d (.y .d .b)) (.x (.y (.x .d .b) .b) .b)) (.y .b .b)) (.y (.x (.x .b .b) .b) .b)) (.y .b .b))
theorem ps3_c8 : chk 300000 250309 2900000 4000000 7249073 8000000 (vPs3 lcR2 300000 250309 ps3_t8) = true := by decide +kernel
def ps3_t9 : Tr4 := .x (.y (.y (.y .b .b) (.y .b .b)) (.y (.y (.x .b .b) (.x .b .b)) (.y (.y .b .b) (.y .b .b)))) (.y (.y .b (.y .b .b)) (.y (.y (.y .b .b) (.x .b .b)) (.y (.x .b .b) .b)))
theorem ps3_c9 : chk 300000 250309 2900000 4000000 7749691 8000000 (vPs3 lcR2 300000 250309 ps3_t9) = true := by decide +kernel
def ps3_t10 : Tr4 := .x (.y (.x .d (.y .d (.y .d .d))) (.x (.y (.x .d (.y .d (.y .d .d))) (.y (.x (.y .d (.x .d .b)) .b) (.x (.y (.x (.x .d .b) .b) .b) .b))) (.y (.y (.x .d .b) (.x .b .b)) (.y .b .b)))) (.y (.x (.y (.y .d .d) (.y (.y (.x .d .b) (.x .d .b)) .b)) (.y (.y (.x .d (.y (.x .d .b) (.x .b .b))) (.x (.y (.x .d .b) .b) .b)) .b)) (.x (.y (.y (.x .b .b) (.x .b .b)) (.y .b .b)) (.y (.y .b .b) (.y .b .b))))
theorem ps3_c10 : chk 400000 250309 2000000 2000000 3249073 4000000 (vPs3 lcR3 400000 250309 ps3_t10) = true := by decide +kernel

end If97.Tm
