import Verif.Lemmas.Tm.Comp.Region3s

/-! T and v from (p, h) in region 3, vapour below 373.946 degC, part 0 (generated subdivisions, checked in the kernel) -/

namespace If97.Tm
set_option maxRecDepth 100000

def ph3v_t0 : Tr4 := .x .d (.x .d (.x .d .d))
theorem ph3v_c0 : chk 300000 38428 300000 2000000 2038428 2000000 (vPh3v 300000 38428 ph3v_t0) = true := by decide +kernel
def ph3v_t1 : Tr4 := .y (.x (.x .d .d) (.x (.y (.x .d (.y .d (.x .d (.y .d .b)))) (.x (.y .d (.x .d (.y .d .b))) (.y (.x (.y .d .b) .b) .b))) (.y (.x (.y (.x (.y .d (.x .d .b)) .b) (.x .b .b)) (.y (.x .b .b) .b)) (.x .b .b)))) (.x (.x .d (.y .d (.x .d .b))) (.y (.x (.x (.x (.y .d .b) .b) .b) .b) (.x (.y .b (.x .b (.y .b (.x .b .d)))) (.y (.y .b (.x .b (.y .b .d))) (.x (.y (.x .b .d) .d) .d)))))
theorem ph3v_c1 : chk 200000 38428 1400000 4000000 2038428 2000000 (vPh3v 200000 38428 ph3v_t1) = true := by decide +kernel
def ph3v_t2 : Tr4 := .y (.x (.y (.x (.x (.y (.y .b .b) .b) .b) .b) (.x .b (.y .b .b))) (.y (.x .b (.y .b .b)) (.y (.x .b (.y .b .b)) (.x (.y .b .b) (.y .b (.x .b (.y .b .d))))))) (.x (.y (.y (.x .b (.y .b (.x .b .b))) (.x (.y .b (.x .b (.y .b .d))) (.y (.x .b .d) .d))) (.y (.x (.y (.x (.y .b .d) .d) .d) .d) .d)) (.y (.y (.x (.y (.x .b (.y .b .d)) (.x (.y .b .d) .d)) .d) .d) .d))
theorem ph3v_c2 : chk 200000 38428 1800000 4000000 2038428 2000000 (vPh3v 200000 38428 ph3v_t2) = true := by decide +kernel
def ph3v_t3 : Tr4 := .y (.x (.y (.x (.y (.x .b (.y .b .b)) (.x .b (.y .b .b))) (.y (.x (.y .b .b) (.y .b .b)) (.y (.x .b .b) (.x .b .b)))) (.y (.x (.y (.x .b .b) (.x .b .b)) (.y (.x .b (.y .b .d)) (.x (.y .b .d) .d))) (.x (.y (.x (.y .b (.x .b .d)) .d) .d) .d))) (.y (.y (.x (.y (.x .b .b) (.x .b .b)) (.y .b .b)) (.y (.x .b .b) (.x .b .d))) .d)) .d
theorem ph3v_c3 : chk 300000 38428 2300000 4000000 2038428 2000000 (vPh3v 300000 38428 ph3v_t3) = true := by decide +kernel
def ph3v_t4 : Tr4 := .y (.x (.y (.y .b (.y .b .d)) .d) (.y (.y (.y .b (.x .b .d)) .d) .d)) .d
theorem ph3v_c4 : chk 300000 38428 2900000 4000000 2038428 2000000 (vPh3v 300000 38428 ph3v_t4) = true := by decide +kernel
def ph3v_t5 : Tr4 := .x (.y (.x (.y (.y (.y .b .d) .d) .d) (.y (.y (.y .b .d) .d) .d)) .d) (.y (.x (.y (.x (.y (.y .b .d) .d) (.y (.y .b (.y .b .d)) .d)) .d) (.y (.y (.x (.x .b (.y .b .d)) (.y .c .d)) .d) .d)) .d)
theorem ph3v_c5 : chk 200000 38428 1800000 2000000 2038428 2000000 (vPh3v 200000 38428 ph3v_t5) = true := by decide +kernel

end If97.Tm
