import Verif.Lemmas.Tm.Comp.Region3

/-! T and v from (p, h) in region 3, above 373.946 degC, part 8 (generated subdivisions, checked in the kernel) -/

namespace If97.Tm
set_option maxRecDepth 100000

def ph3_t41 : Tr4 := .y (.x (.x .d .d) .d) (.x (.y (.x (.y (.x (.y (.x .d .d) (.x .a (.x .a .d))) .d) (.x (.y (.x .a .a) (.x .a .a)) (.y (.x (.x .a .d) .d) (.x .a (.x (.y .d .a) .d))))) .d) (.x (.y (.x (.y .a .a) (.y (.x .a .a) .a)) (.x (.y .a .a) .a)) (.x (.y (.x (.y (.x .d .d) .a) .d) .a) (.y .d (.x (.y .d .a) .d))))) (.x .d .d))
theorem ph3_c41 : chk 800000 250309 9200000 4000000 3749691 4000000 (vPh3 800000 250309 ph3_t41) = true := by decide +kernel

end If97.Tm
