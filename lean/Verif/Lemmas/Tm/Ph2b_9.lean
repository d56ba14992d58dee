import Verif.Lemmas.Tm.Comp.Scales
import Verif.Lemmas.Tm.Comp.Region2

/-! T(p, h) in region 2b, part 9 (generated subdivisions, checked in the kernel) -/

namespace If97.Tm
set_option maxRecDepth 100000

def ph2b_t45 : Tr4 := .x (.y (.y (.y (.y (.x (.y (.x (.x (.y .a .d) .a) (.y .a .d)) .d) (.y (.y (.x (.y .a .d) (.y (.y (.x .a .a) .d) .d)) .d) .d)) .d) .d) .d) .d) (.y (.y (.y (.y (.y (.x (.y (.x (.y (.y (.x .a .a) .d) .d) (.y (.x (.y .a .d) .a) .d)) .d) (.x (.y .a .d) (.y (.y .a .d) .d))) .d) .d) .d) .d) .d)
theorem ph2b_c45 : chk 462278 1 5862278 2000000 1 4 (vPh2b sk11 q16 q17 462278 1 ph2b_t45) = true := by decide +kernel
def ph2b_t46 : Tr4 := .x (.y (.y (.y .d (.x .d .d)) (.y (.x .d .d) (.x .d .d))) (.y (.y (.x .d .d) (.x .d .d)) (.y (.x .d .d) (.x .d .d)))) (.y (.y .d (.y .d (.y (.x .d .d) (.x .d .d)))) (.y (.y (.x .d .d) (.x .d .d)) (.y (.x .d .d) (.x .d .d))))
theorem ph2b_c46 : chk 462278 1 5862278 2000000 3 4 (vPh2b sk11 q16 q17 462278 1 ph2b_t46) = true := by decide +kernel

end If97.Tm
