import Verif.Lemmas.Tm.Comp.Region3

/-! T and v from (p, s) in region 3, 350 to 373.946 degC, part 0 (generated subdivisions, checked in the kernel) -/

namespace If97.Tm
set_option maxRecDepth 100000

def ps3l_t0 : Tr4 := .x .d .d
theorem ps3l_c0 : chk 300000 38428 300000 2000000 2038428 2000000 (vPs3l lcR1 300000 38428 ps3l_t0) = true := by decide +kernel
def ps3l_t1 : Tr4 := .x .d .d
theorem ps3l_c1 : chk 200000 38428 800000 2000000 2038428 2000000 (vPs3l lcR1 200000 38428 ps3l_t1) = true := by decide +kernel
def ps3l_t2 : Tr4 := .x (.x .d .d) (.y (.x .d (.y .d .d)) .d)
theorem ps3l_c2 : chk 300000 38428 1300000 2000000 2038428 2000000 (vPs3l lcR2 300000 38428 ps3l_t2) = true := by decide +kernel
def ps3l_t3 : Tr4 := .y (.x (.y (.x (.y (.y .b .d) .d) (.x (.y (.y .b .d) .d) (.x (.y (.y .b .d) .d) (.y (.x (.y (.y .b .d) .d) (.y (.y .c .d) .d)) .d)))) .d) (.y (.x (.y (.x (.y (.y .c .d) .d) (.y .a .d)) .d) (.y (.x (.y .a .d) (.y .a .d)) .d)) .d)) .d
theorem ps3l_c3 : chk 400000 38428 2000000 2000000 2038428 2000000 (vPs3l lcR3 400000 38428 ps3l_t3) = true := by decide +kernel
def ps3l_t4 : Tr4 := .y (.x (.y (.y .a .d) .d) (.y (.x .a .a) .d)) .d
theorem ps3l_c4 : chk 500000 38428 5300000 4000000 4038428 4000000 (vPs3l lcR4 500000 38428 ps3l_t4) = true := by decide +kernel
def ps3l_t5 : Tr4 := .y (.x (.x (.y (.x (.y .a .a) (.y (.x (.y .a .a) (.y .a .a)) (.x .a .a))) (.y .a .d)) (.y (.x (.y (.x (.y .a .a) (.x .a .a)) (.y (.x .a .a) (.x .a .a))) (.x (.y .a .a) (.y .a .a))) (.y (.x (.y .a .a) .a) (.x .d .a)))) (.x (.x (.y .a .a) .a) (.x .a .a))) (.x .d (.x (.y (.x .d .a) .d) (.x (.y .a .d) (.y (.y .a .a) (.x (.y .a .d) .a)))))
theorem ps3l_c5 : chk 500000 38428 6300000 4000000 4038428 4000000 (vPs3l lcR4 500000 38428 ps3l_t5) = true := by decide +kernel
def ps3l_t6 : Tr4 := .x .d .d
theorem ps3l_c6 : chk 500000 38428 2900000 2000000 4115284 4000000 (vPs3l lcR4 500000 38428 ps3l_t6) = true := by decide +kernel
def ps3l_t7 : Tr4 := .y (.x (.x (.x (.x (.y .a .a) (.y (.x .a .a) .a)) (.x (.y .a (.y .a .a)) (.y (.x .a .a) .a))) (.x (.x (.y .a .a) .a) .a)) (.x .a .a)) (.x (.x (.x (.x (.y .a (.x .a .a)) .a) (.y (.x .a .a) .a)) (.x (.x (.y .a .a) .a) .a)) (.x .a .a))
theorem ps3l_c7 : chk 800000 38428 7600000 4000000 4038428 4000000 (vPs3l lcR5 800000 38428 ps3l_t7) = true := by decide +kernel
def ps3l_t8 : Tr4 := .x .a .a
theorem ps3l_c8 : chk 800000 38428 34400000 16000000 8038428 8000000 (vPs3l lcR5 800000 38428 ps3l_t8) = true := by decide +kernel
def ps3l_t9 : Tr4 := .x .a .a
theorem ps3l_c9 : chk 800000 38428 71200000 32000000 8038428 8000000 (vPs3l lcR5 800000 38428 ps3l_t9) = true := by decide +kernel
def ps3l_t10 : Tr4 := .x .a (.y (.x .a (.y (.x (.y (.x .a (.y .d .a)) .a) (.y .d (.x .a (.y .d .a)))) .a)) .a)
theorem ps3l_c10 : chk 800000 38428 144800000 64000000 8038428 8000000 (vPs3l lcR5 800000 38428 ps3l_t10) = true := by decide +kernel
def ps3l_t11 : Tr4 := .x (.x (.y .d (.x (.y (.x .a (.y .d .a)) .a) (.y .d (.x .a (.y .d .a))))) .d) .d
theorem ps3l_c11 : chk 800000 38428 146400000 64000000 16038428 16000000 (vPs3l lcR5 800000 38428 ps3l_t11) = true := by decide +kernel

end If97.Tm
