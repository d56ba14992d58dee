import Verif.Lemmas.Tm.Comp.Region3

/-! T and v from (p, s) in region 3, above 373.946 degC, part 11 (generated subdivisions, checked in the kernel) -/

namespace If97.Tm
set_option maxRecDepth 100000

def ps3_t57 : Tr4 := .y .d (.x (.y (.x (.y .d (.x (.y .d (.x .a (.y .d (.x .a .d)))) .d)) .d) (.x (.y (.x .a (.y (.x (.y .d (.x .a .d)) .d) (.x .a (.y (.x .a .d) .a)))) .a) (.y .d (.x (.y (.x (.y (.x .a .d) .a) .d) .a) (.y .d (.x (.y .d (.x .a .d)) .d)))))) .d)
theorem ps3_c57 : chk 800000 250309 127200000 64000000 58242893 64000000 (vPs3 lcR5 800000 250309 ps3_t57) = true := by decide +kernel
def ps3_t58 : Tr4 := .x .a (.y (.x (.y (.x .a (.y (.x .a (.y (.x .a (.y .d .a)) .a)) .a)) .a) (.y (.x (.y (.x (.y .d (.x (.y .d .a) .d)) .d) (.x .a (.y .d (.x .a .d)))) .d) (.x .a (.y (.x (.y (.x (.y .d .a) .d) .a) .d) (.x .a (.y (.x .a .d) .a)))))) .a)
theorem ps3_c58 : chk 800000 250309 63200000 32000000 58743511 64000000 (vPs3 lcR5 800000 250309 ps3_t58) = true := by decide +kernel
def ps3_t59 : Tr4 := .x (.y (.x .a .a) (.x .a .a)) (.x .a .a)
theorem ps3_c59 : chk 800000 250309 31200000 16000000 29747219 32000000 (vPs3 lcR5 800000 250309 ps3_t59) = true := by decide +kernel
def ps3_t60 : Tr4 := .y (.x (.y .d (.x (.y (.x .d .d) (.x (.y (.x (.y (.x .a (.y .d (.x .a .d))) .a) (.y .d (.x (.y .d .a) .d))) (.x .a (.y (.x .a (.y .d .a)) .a))) (.y .d (.x (.y .d (.x .a .d)) .d)))) .d)) .d) (.x (.y (.x (.y (.x .a (.y (.x .a (.y .d (.x .a .d))) .a)) .a) (.y (.x (.y .d (.x (.y (.x .a .d) .a) .d)) .d) (.x (.y (.x .a (.y (.x .a .d) .a)) .a) (.y .d (.x .a .d))))) .a) (.y .d (.x (.y (.x (.y (.x (.y .d .a) .d) (.x .a (.y .d .a))) .d) (.x .a (.y (.x .a .d) .a))) .d)))
theorem ps3_c60 : chk 800000 250309 32800000 16000000 14748455 16000000 (vPs3 lcR5 800000 250309 ps3_t60) = true := by decide +kernel
def ps3_t61 : Tr4 := .y (.x (.y (.x (.y .a .a) (.x .a .a)) (.y (.x .a .a) (.x .a .a))) (.y (.x .a .a) (.x .a .a))) (.x (.y (.y (.x .a .a) (.x .a .a)) (.x (.y (.y .a .a) (.x (.x .a .a) (.y .a .a))) (.y .a (.x (.y .a (.x .a .a)) (.y .a .a))))) (.y .a (.x .a .a)))
theorem ps3_c61 : chk 800000 250309 14400000 8000000 7749691 8000000 (vPs3 lcR5 800000 250309 ps3_t61) = true := by decide +kernel

end If97.Tm
