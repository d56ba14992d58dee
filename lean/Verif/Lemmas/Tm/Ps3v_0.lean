import Verif.Lemmas.Tm.Comp.Region3s

/-! T and v from (p, s) in region 3, vapour below 373.946 degC, part 0 (generated subdivisions, checked in the kernel) -/

namespace If97.Tm
set_option maxRecDepth 100000

def ps3v_t0 : Tr4 := .x .d (.x .d (.x .d .d))
theorem ps3v_c0 : chk 300000 38428 300000 2000000 2038428 2000000 (vPs3v lcR1 300000 38428 ps3v_t0) = true := by decide +kernel
def ps3v_t1 : Tr4 := .x (.y (.x (.x .d .d) (.x (.x (.y .d (.x .d (.y .d .b))) (.y (.x .d (.y .d .b)) .b)) (.y (.x .b .b) (.x .b .b)))) (.x (.x .d (.x .d (.x .d (.y .d .d)))) (.x (.y (.x (.x .b .b) .b) .b) (.y .b (.y .b (.x .b .d)))))) (.y (.x (.y (.x (.y .b .b) (.y .b .b)) (.x (.y .b .b) .b)) (.y .b (.y .b (.x .b .b)))) (.x (.y (.y .b (.x .b (.y .b .d))) (.x (.y (.x .b .d) .d) .d)) (.y (.y (.x (.y .b (.x .b .d)) .d) .d) .d)))
theorem ps3v_c1 : chk 200000 38428 800000 2000000 2038428 2000000 (vPs3v lcR1 200000 38428 ps3v_t1) = true := by decide +kernel
def ps3v_t2 : Tr4 := .x (.y (.x (.y (.x (.y .b .b) (.y .b .b)) (.y (.x .b (.y .b (.x .b .d))) (.x (.y (.x .b .d) .d) .d))) (.y (.y (.x .b .b) .b) .d)) .d) (.y (.x (.y (.y .b (.x .b .d)) .d) (.y (.y .b .d) .d)) .d)
theorem ps3v_c2 : chk 300000 38428 1300000 2000000 2038428 2000000 (vPs3v lcR2 300000 38428 ps3v_t2) = true := by decide +kernel
def ps3v_t3 : Tr4 := .x (.y (.x (.y (.y (.y .b .d) .d) .d) (.y (.y (.y .b .d) .d) .d)) .d) (.y (.x (.y (.y (.y .b (.x .d (.x .d .d))) .d) .d) (.y (.x (.y (.y .b .d) .d) (.y (.x (.y (.y .b .d) .d) (.y (.y .c .d) .d)) .d)) .d)) .d)
theorem ps3v_c3 : chk 200000 38428 1800000 2000000 2038428 2000000 (vPs3v lcR3 200000 38428 ps3v_t3) = true := by decide +kernel

end If97.Tm
