import Verif.Lemmas.Tm.Comp.Region3

/-! T and v from (p, s) in region 3, 350 to 373.946 degC, part 1 (generated subdivisions, checked in the kernel) -/

namespace If97.Tm
set_option maxRecDepth 100000

def ps3l_t12 : Tr4 := .x .a (.y (.x (.y (.x (.y (.x .a (.y .d .a)) .a) (.y .d (.x .a (.y .d .a)))) .a) (.y .d (.x (.y (.x .a (.y .d .a)) .a) (.y .d (.x .a (.y (.x (.y .d .a) .d) .a)))))) .a)
theorem ps3l_c12 : chk 800000 38428 292000000 128000000 16115284 16000000 (vPs3l lcR5 800000 38428 ps3l_t12) = true := by decide +kernel
def ps3l_t13 : Tr4 := .x (.x (.y .d (.x (.y .d (.x (.y .d (.x (.y .d .a) .d)) .d)) .d)) .d) .d
theorem ps3l_c13 : chk 800000 38428 293600000 128000000 32192140 32000000 (vPs3l lcR5 800000 38428 ps3l_t13) = true := by decide +kernel
def ps3l_t14 : Tr4 := .y (.x (.y (.x .a (.y (.x (.y .d .a) .d) .a)) .a) (.y (.x (.y .d (.x (.y .d .a) .d)) .d) (.x .a (.y (.x (.y .d .a) .d) .a)))) .a
theorem ps3l_c14 : chk 800000 38428 1172000000 512000000 32268996 32000000 (vPs3l lcR5 800000 38428 ps3l_t14) = true := by decide +kernel
def ps3l_t15 : Tr4 := .y (.x (.y .d (.x (.y .d (.x (.y .d .a) .d)) .d)) .d) (.x (.y (.x (.y (.x .a (.y (.x .a .d) .a)) .a) (.y (.x (.y .d (.x .a .d)) .d) (.x .a (.y (.x .a (.y .d .a)) .a)))) .a) (.y (.x (.y .d (.x (.y .d (.x .a (.y .d .a))) .d)) .d) (.x (.y (.x .a (.y (.x .a (.y .d .a)) .a)) .a) (.y (.x (.y .d (.x .a (.y .d .a))) .d) (.x .a (.y (.x .a (.y .d .a)) .a))))))
theorem ps3l_c15 : chk 800000 38428 1173600000 512000000 32268996 32000000 (vPs3l lcR5 800000 38428 ps3l_t15) = true := by decide +kernel
def ps3l_t16 : Tr4 := .y .d (.x (.y .d (.x (.x (.y .d (.x (.y .d (.x .a (.y .d .a))) .d)) .d) .d)) .d)
theorem ps3l_c16 : chk 800000 38428 588000000 256000000 32268996 32000000 (vPs3l lcR5 800000 38428 ps3l_t16) = true := by decide +kernel
def ps3l_t17 : Tr4 := .x (.x .d .d) .d
theorem ps3l_c17 : chk 800000 38428 19200000 8000000 8038428 8000000 (vPs3l lcR5 800000 38428 ps3l_t17) = true := by decide +kernel
def ps3l_t18 : Tr4 := .x .a .a
theorem ps3l_c18 : chk 800000 38428 34400000 16000000 8115284 8000000 (vPs3l lcR5 800000 38428 ps3l_t18) = true := by decide +kernel
def ps3l_t19 : Tr4 := .a
theorem ps3l_c19 : chk 800000 38428 71200000 32000000 8115284 8000000 (vPs3l lcR5 800000 38428 ps3l_t19) = true := by decide +kernel
def ps3l_t20 : Tr4 := .a
theorem ps3l_c20 : chk 800000 38428 144800000 64000000 8115284 8000000 (vPs3l lcR5 800000 38428 ps3l_t20) = true := by decide +kernel
def ps3l_t21 : Tr4 := .a
theorem ps3l_c21 : chk 800000 38428 292000000 128000000 8115284 8000000 (vPs3l lcR5 800000 38428 ps3l_t21) = true := by decide +kernel
def ps3l_t22 : Tr4 := .a
theorem ps3l_c22 : chk 800000 38428 586400000 256000000 16192140 16000000 (vPs3l lcR5 800000 38428 ps3l_t22) = true := by decide +kernel
def ps3l_t23 : Tr4 := .x (.x (.y (.x (.y (.x .a (.y (.x .a (.y .d .a)) .a)) .a) (.y (.x (.y .d (.x .a (.y .d .a))) .d) (.x .a (.y (.x .a (.y .d .a)) .a)))) .a) (.y (.y .d (.x (.x (.y .d (.x .a (.y .d .a))) .d) .d)) (.x (.y (.x .a (.y (.x .a (.y .d .a)) .a)) .a) (.y (.x (.y .d (.x .a (.y .d .a))) .d) (.x .a (.y (.x .a (.y .d .a)) .a)))))) (.y .d (.x (.y .d (.x (.y .d (.x (.y (.x .a .d) .a) .d)) .d)) .d))
theorem ps3l_c23 : chk 800000 38428 588000000 256000000 64653276 64000000 (vPs3l lcR5 800000 38428 ps3l_t23) = true := by decide +kernel

end If97.Tm
