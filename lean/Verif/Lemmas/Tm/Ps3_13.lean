import Verif.Lemmas.Tm.Comp.Region3

/-! T and v from (p, s) in region 3, above 373.946 degC, part 13 (generated subdivisions, checked in the kernel) -/

namespace If97.Tm
set_option maxRecDepth 100000

def ps3_t66 : Tr4 := .y .d (.x (.y (.x (.y (.x .d .d) (.x (.y .a .a) (.y .d (.x .a (.y .d .a))))) .d) (.x (.y (.x .a .a) .a) (.y (.x (.y (.x .a (.y .d .a)) .a) (.y .d (.x .a (.y .d (.x .a .d))))) .a))) (.y .d (.x (.y .d (.x (.y (.x (.y (.x .a .d) .a) (.y .d (.x (.y .d .a) .d))) .a) (.y .d (.x (.y .d (.x .a (.y .d .a))) .d)))) .d)))
theorem ps3_c66 : chk 800000 250309 36000000 16000000 7749691 8000000 (vPs3 lcR5 800000 250309 ps3_t66) = true := by decide +kernel
def ps3_t67 : Tr4 := .x .d .d
theorem ps3_c67 : chk 800000 250309 19200000 8000000 7749691 8000000 (vPs3 lcR5 800000 250309 ps3_t67) = true := by decide +kernel

end If97.Tm
