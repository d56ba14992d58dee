import Verif.Lemmas.Tm.Comp.Region3

/-! T and v from (p, h) in region 3, 350 to 373.946 degC, part 1 (generated subdivisions, checked in the kernel) -/

namespace If97.Tm
set_option maxRecDepth 100000

def ph3l_t7 : Tr4 := .x (.y (.x (.x (.x (.x .d (.y .a .d)) .a) (.x (.y .a (.x .a .a)) (.x .a .a))) (.x (.x .a .a) (.x .a .a))) (.x (.x .d (.x (.y .a .d) (.y .a .a))) (.x (.x .a .a) .a))) (.y (.x (.x .a (.x .a .a)) (.x (.x (.x .a .a) .d) .d)) (.x (.x .a .a) (.x (.x .a (.x .a .d)) .d)))
theorem ph3l_c7 : chk 800000 38428 4200000 2000000 4115284 4000000 (vPh3l 800000 38428 ph3l_t7) = true := by decide +kernel

end If97.Tm
