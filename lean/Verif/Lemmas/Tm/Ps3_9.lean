import Verif.Lemmas.Tm.Comp.Region3

/-! T and v from (p, s) in region 3, above 373.946 degC, part 9 (generated subdivisions, checked in the kernel) -/

namespace If97.Tm
set_option maxRecDepth 100000

def ps3_t44 : Tr4 := .y (.y (.y (.y (.x .a .a) .a) (.x .a .a)) (.y (.x .a .a) (.x .a .a))) (.y (.x (.x .a .a) .a) (.x (.y (.y .a (.x .a .a)) (.x (.x .a .a) (.y .a (.x .a .a)))) (.y (.x .a .a) (.x (.y (.x .a .a) (.x (.y .a .a) .a)) .a))))
theorem ps3_c44 : chk 500000 250309 12100000 8000000 15749691 16000000 (vPs3 lcR4 500000 250309 ps3_t44) = true := by decide +kernel
def ps3_t45 : Tr4 := .y (.y (.x .a (.y (.x .a .a) .a)) (.x (.y .a .a) .a)) (.y (.x (.y .a .a) (.y .a .a)) (.x (.y .a .a) (.y (.x .a .a) (.x .a (.x .a .a)))))
theorem ps3_c45 : chk 500000 250309 13100000 8000000 7749691 8000000 (vPs3 lcR4 500000 250309 ps3_t45) = true := by decide +kernel
def ps3_t46 : Tr4 := .x (.y .d (.x (.y (.x .d .d) (.x (.y (.x (.x (.x (.y (.y .d .c) .a) (.y .d .a)) (.y .d (.y (.x (.y .d .a) .d) .a))) (.x (.x .d .d) .d)) (.x .a (.y (.x .a (.y .d (.x .a .d))) .a))) (.y .d (.x (.y .d (.x (.y (.x .a .d) .a) .d)) .d)))) .d)) (.x .d .d)
theorem ps3_c46 : chk 800000 250309 4200000 2000000 3249073 4000000 (vPs3 lcR5 800000 250309 ps3_t46) = true := by decide +kernel
def ps3_t47 : Tr4 := .y (.x (.y .a .a) (.y (.x (.y (.x .a (.y (.x .a (.y .d .a)) .a)) .a) (.y (.x (.y .d (.x (.y .d .a) .d)) .d) (.x (.y (.x .a (.y (.x .a .d) .a)) .a) (.y .d (.x (.y (.x .a .d) .a) (.y .d (.x (.y .d .a) .d))))))) (.y (.x .a (.x .a (.y (.x .a (.y (.x .a (.y .d .a)) .a)) .a))) .a))) (.x (.x (.y .a (.x (.y .a .a) .a)) (.y .a .a)) (.x (.y .a .a) (.y (.y .a .a) (.x .a .a))))
theorem ps3_c47 : chk 800000 250309 14400000 8000000 7249073 8000000 (vPs3 lcR5 800000 250309 ps3_t47) = true := by decide +kernel
def ps3_t48 : Tr4 := .d
theorem ps3_c48 : chk 800000 250309 31200000 16000000 28245365 32000000 (vPs3 lcR5 800000 250309 ps3_t48) = true := by decide +kernel
def ps3_t49 : Tr4 := .x (.y (.x (.y .d (.x (.y (.x .a .d) .a) .d)) .d) (.x (.y (.x .a (.y (.x .a (.y .d .a)) .a)) .a) (.y (.x (.y .d (.x (.y .d .a) .d)) .d) (.x .a (.y .d (.x .a (.y .d (.x .a .d)))))))) .d
theorem ps3_c49 : chk 800000 250309 61600000 32000000 57241657 64000000 (vPs3 lcR5 800000 250309 ps3_t49) = true := by decide +kernel

end If97.Tm
