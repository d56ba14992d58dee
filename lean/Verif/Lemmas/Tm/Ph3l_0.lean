import Verif.Lemmas.Tm.Comp.Region3

/-! T and v from (p, h) in region 3, 350 to 373.946 degC, part 0 (generated subdivisions, checked in the kernel) -/

namespace If97.Tm
set_option maxRecDepth 100000

def ph3l_t0 : Tr4 := .x .d .d
theorem ph3l_c0 : chk 300000 38428 300000 2000000 2038428 2000000 (vPh3l 300000 38428 ph3l_t0) = true := by decide +kernel
def ph3l_t1 : Tr4 := .x .d .d
theorem ph3l_c1 : chk 200000 38428 800000 2000000 2038428 2000000 (vPh3l 200000 38428 ph3l_t1) = true := by decide +kernel
def ph3l_t2 : Tr4 := .x (.x .d .d) (.y (.x .d (.y .d .d)) .d)
theorem ph3l_c2 : chk 300000 38428 1300000 2000000 2038428 2000000 (vPh3l 300000 38428 ph3l_t2) = true := by decide +kernel
def ph3l_t3 : Tr4 := .y (.x (.y (.x (.y (.y .b .d) .d) (.x (.x (.y (.y .b .d) .d) (.y (.y .b .d) .d)) (.y (.x (.x .b (.y .b .d)) (.y .c .d)) .d))) .d) (.y (.x (.y (.y (.y (.x (.x .c .a) .a) .d) .d) .d) (.y (.x (.y .a .d) (.y .a .d)) .d)) .d)) .d
theorem ph3l_c3 : chk 400000 38428 2000000 2000000 2038428 2000000 (vPh3l 400000 38428 ph3l_t3) = true := by decide +kernel
def ph3l_t4 : Tr4 := .y (.x (.y (.x (.y (.y .a .d) .d) (.x (.y .a .d) (.y (.x .a .a) .d))) .d) (.y (.x (.x (.y (.x .a .a) (.y .a .d)) (.y (.x .a .a) (.x (.y .a .d) (.y .a .a)))) (.x (.y (.x .a .a) (.x (.y .a .a) (.y .a .a))) (.y .a .a))) (.x .d (.x (.y (.x .d (.y .a .d)) .d) (.x (.y (.x .a .a) .d) (.y .a .a)))))) (.x .d .d)
theorem ph3l_c4 : chk 500000 38428 2900000 2000000 2038428 2000000 (vPh3l 500000 38428 ph3l_t4) = true := by decide +kernel
def ph3l_t5 : Tr4 := .y (.x (.x (.x (.y (.x .a .a) (.x .a .a)) (.x .a .a)) (.x (.x .a .a) .a)) (.x (.x (.x .a .a) (.x .a .a)) (.x .a .a))) (.x (.x (.x (.x .a .a) (.y (.x .a .a) .a)) (.x (.x .a .a) .a)) (.x (.x .a (.y .a .a)) (.x .a .a)))
theorem ph3l_c5 : chk 800000 38428 7600000 4000000 4038428 4000000 (vPh3l 800000 38428 ph3l_t5) = true := by decide +kernel
def ph3l_t6 : Tr4 := .y (.x (.x (.x .a .a) (.x .a (.x .a (.y (.x .a .d) .a)))) (.x (.x .d .d) .d)) (.x (.x (.x .a .a) (.x .a .a)) (.x (.x (.x (.y (.x .a .d) .a) .d) .d) .d))
theorem ph3l_c6 : chk 800000 38428 9200000 4000000 4038428 4000000 (vPh3l 800000 38428 ph3l_t6) = true := by decide +kernel

end If97.Tm
