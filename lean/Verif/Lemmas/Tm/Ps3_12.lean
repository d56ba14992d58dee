import Verif.Lemmas.Tm.Comp.Region3

/-! T and v from (p, s) in region 3, above 373.946 degC, part 12 (generated subdivisions, checked in the kernel) -/

namespace If97.Tm
set_option maxRecDepth 100000

def ps3_t62 : Tr4 := .x (.y (.y (.x (.y (.x .a .a) (.x .a .a)) (.x .a .a)) (.x .a (.y .a .a))) (.x .a .a)) (.y (.x (.y (.x (.y .a .a) (.y .a .a)) (.x .a .a)) (.y (.y (.x .a (.y (.x (.y (.x .a .d) .a) .d) .a)) (.x .a (.y .a .a))) (.x (.y .a .a) (.y (.x .a .a) (.y .a .a))))) (.x (.y (.y .a .a) .a) (.y (.x (.y .a .a) (.y .a .a)) .a)))
theorem ps3_c62 : chk 800000 250309 16000000 8000000 7749691 8000000 (vPs3 lcR5 800000 250309 ps3_t62) = true := by decide +kernel
def ps3_t63 : Tr4 := .x (.x .d .d) .d
theorem ps3_c63 : chk 800000 250309 9200000 4000000 7249073 8000000 (vPs3 lcR5 800000 250309 ps3_t63) = true := by decide +kernel
def ps3_t64 : Tr4 := .x (.y (.y (.x .d .d) (.x (.y (.x .a .d) (.x .a .a)) (.y .d (.x (.y .d (.x .a .d)) .d)))) (.y (.x (.y (.x .a .a) .a) (.y (.x .a (.y .d (.x .a .d))) (.x (.y .a .a) .a))) (.x (.x .a (.y .a .a)) (.y (.x (.y .a .a) (.y .a .a)) (.x .a (.y .a .a)))))) (.y .d (.x (.y (.y .d (.x (.y .d (.x .a .d)) .d)) (.x (.y .a (.x .a .a)) (.y (.x (.y .d .a) .d) .a))) (.y .d (.x (.y .d (.x (.y .d .a) .d)) .d))))
theorem ps3_c64 : chk 800000 250309 34400000 16000000 15249073 16000000 (vPs3 lcR5 800000 250309 ps3_t64) = true := by decide +kernel
def ps3_t65 : Tr4 := .y (.x (.y (.x (.y .a .a) (.y (.x .a .a) (.x .a .a))) (.x .a (.x .a .a))) (.x (.y (.x (.y (.x .a .a) .a) (.y (.x .a .a) .a)) (.y (.x .a .a) .a)) (.y (.x (.y .a .a) (.y (.x (.y .d .a) .d) .a)) (.x .a (.y .a .a))))) (.x (.y (.x .a .a) .a) (.y (.x .a (.x .a .a)) (.x .a .a)))
theorem ps3_c65 : chk 800000 250309 34400000 16000000 15749691 16000000 (vPs3 lcR5 800000 250309 ps3_t65) = true := by decide +kernel

end If97.Tm
