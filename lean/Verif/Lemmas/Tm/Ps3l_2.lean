import Verif.Lemmas.Tm.Comp.Region3

/-! T and v from (p, s) in region 3, 350 to 373.946 degC, part 2 (generated subdivisions, checked in the kernel) -/

namespace If97.Tm
set_option maxRecDepth 100000

def ps3l_t24 : Tr4 := .x .a (.y (.x (.y (.x (.y (.x .a (.y (.x .a .d) .a)) .a) (.y .d (.x (.y (.x .a .d) .a) .d))) (.x .a (.y (.x .a (.y (.x .a .d) .a)) .a))) (.y .d (.x (.y .d (.x (.y (.x .a .d) .a) (.y .d (.x (.y .d (.x .a .d)) .d)))) .d))) (.x .a (.y (.x (.y (.x .a (.y (.x .a (.y .d (.x .a .d))) .a)) .a) (.y (.x (.y .d (.x (.y .d (.x .a .d)) .d)) .d) (.x (.y (.x .a (.y .d (.x .a .d))) .a) (.y .d (.x (.y .d .a) .d))))) (.x .a (.y (.x .a (.y (.x .a (.y .d .a)) .a)) .a)))))
theorem ps3l_c24 : chk 800000 38428 588000000 256000000 64730132 64000000 (vPs3l lcR5 800000 38428 ps3l_t24) = true := by decide +kernel
def ps3l_t25 : Tr4 := .a
theorem ps3l_c25 : chk 800000 38428 588000000 256000000 32422708 32000000 (vPs3l lcR5 800000 38428 ps3l_t25) = true := by decide +kernel
def ps3l_t26 : Tr4 := .a
theorem ps3l_c26 : chk 800000 38428 293600000 128000000 16268996 16000000 (vPs3l lcR5 800000 38428 ps3l_t26) = true := by decide +kernel
def ps3l_t27 : Tr4 := .x (.y .d (.x (.y .d (.x (.y .d (.x (.y (.x (.y .d (.x (.y .d .a) .d)) .d) (.x (.y (.x .a (.y .d .a)) .a) (.y .d (.x (.y .d .a) .d)))) .d)) .d)) .d)) .d
theorem ps3l_c27 : chk 800000 38428 295200000 128000000 32345852 32000000 (vPs3l lcR5 800000 38428 ps3l_t27) = true := by decide +kernel
def ps3l_t28 : Tr4 := .x (.y (.x (.y (.x (.y (.x .a (.y (.x .a (.y .d .a)) .a)) .a) (.y (.x (.y .d (.x (.y .d .a) .d)) .d) (.x (.y (.x .a (.y .d .a)) .a) (.y .d (.x (.y .d .a) .d))))) (.x .a (.y (.x .a (.y (.x .a (.y .d .a)) .a)) .a))) (.y .d (.x (.y (.x (.y .d (.x (.y .d .a) .d)) .d) (.x (.y (.x .a (.y .d .a)) .a) (.y .d (.x .a .d)))) .d))) (.x .a (.y (.x .a (.y (.x (.y .d (.x .a .d)) .d) (.x .a (.y .d (.x .a .d))))) .a))) (.y .d (.x (.y .d (.x (.y (.x (.y .d (.x .a .d)) .d) (.x .a (.y .d (.x .a .d)))) .d)) .d))
theorem ps3l_c28 : chk 800000 38428 589600000 256000000 64806988 64000000 (vPs3l lcR5 800000 38428 ps3l_t28) = true := by decide +kernel
def ps3l_t29 : Tr4 := .x .a (.y (.x (.y (.x .a (.y (.x (.y .d (.x .a .d)) .d) (.x .a (.y .d (.x .a .d))))) .a) (.y .d (.x (.y (.x (.y .d .a) .d) (.x .a (.y .d .a))) .d))) (.x .a (.y (.x .a (.y (.x (.y .d .a) .d) (.x .a (.y .d .a)))) .a)))
theorem ps3l_c29 : chk 800000 38428 589600000 256000000 64883844 64000000 (vPs3l lcR5 800000 38428 ps3l_t29) = true := by decide +kernel
def ps3l_t30 : Tr4 := .y .d (.x (.y .d (.x (.y .d (.x (.y (.x (.y .d .a) .d) .a) .d)) .d)) .d)
theorem ps3l_c30 : chk 800000 38428 591200000 256000000 32422708 32000000 (vPs3l lcR5 800000 38428 ps3l_t30) = true := by decide +kernel
def ps3l_t31 : Tr4 := .d
theorem ps3l_c31 : chk 800000 38428 296800000 128000000 16192140 16000000 (vPs3l lcR5 800000 38428 ps3l_t31) = true := by decide +kernel

end If97.Tm
