import Verif.Lemmas.Tm.Comp.Region3

/-! T and v from (p, s) in region 3, 350 to 373.946 degC, part 3 (generated subdivisions, checked in the kernel) -/

namespace If97.Tm
set_option maxRecDepth 100000

def ps3l_t32 : Tr4 := .x (.y (.x .a (.y (.x (.y (.x (.y (.x .a (.y (.x .a .d) .a)) .a) (.y .d (.x (.y (.x .a .d) .a) .d))) (.x .a (.y (.x .a (.y (.x .a .d) .a)) .a))) (.y .d (.x (.y .d (.x .a .d)) .d))) (.x .a (.y (.x .a (.y .d (.x .a .d))) .a)))) .a) (.y (.x (.y .d (.x (.y .d (.x (.y .d (.x .a .d)) .d)) .d)) .d) (.x (.y (.x (.y (.x .a (.y .d .a)) .a) (.y .d (.x (.y .d .a) .d))) .a) (.y .d (.x (.y .d (.x .a .d)) .d))))
theorem ps3l_c32 : chk 800000 38428 148000000 64000000 16268996 16000000 (vPs3l lcR5 800000 38428 ps3l_t32) = true := by decide +kernel
def ps3l_t33 : Tr4 := .d
theorem ps3l_c33 : chk 800000 38428 149600000 64000000 8115284 8000000 (vPs3l lcR5 800000 38428 ps3l_t33) = true := by decide +kernel
def ps3l_t34 : Tr4 := .d
theorem ps3l_c34 : chk 800000 38428 76000000 32000000 8115284 8000000 (vPs3l lcR5 800000 38428 ps3l_t34) = true := by decide +kernel
def ps3l_t35 : Tr4 := .d
theorem ps3l_c35 : chk 800000 38428 39200000 16000000 8115284 8000000 (vPs3l lcR5 800000 38428 ps3l_t35) = true := by decide +kernel
def ps3l_t36 : Tr4 := .y (.x (.x (.x (.y (.x .d (.x .a .a)) .d) (.x (.y .a .d) .a)) (.x (.x .a .a) .a)) (.x .a .a)) (.x (.x .d (.x (.y .a .d) (.y .a .a))) (.x (.x .a .a) .a))
theorem ps3l_c36 : chk 800000 38428 7600000 4000000 4115284 4000000 (vPs3l lcR5 800000 38428 ps3l_t36) = true := by decide +kernel
def ps3l_t37 : Tr4 := .y (.x (.x (.x .a .a) (.x .a .a)) (.x (.x (.x (.y (.x .a (.y (.x .a (.y (.x .a (.y .d .a)) .a)) .a)) .a) (.y (.x (.y (.x (.y .d (.x (.y .d .a) .d)) .d) (.x .a (.y .d (.x .a .d)))) .d) (.y (.x .a (.y .d (.x .a .d))) .a))) .d) .d)) (.x (.x .a .a) (.x (.x .a (.y (.y (.x .a .d) .a) .a)) .d))
theorem ps3l_c37 : chk 800000 38428 9200000 4000000 4115284 4000000 (vPs3l lcR5 800000 38428 ps3l_t37) = true := by decide +kernel

end If97.Tm
