import Verif.Lemmas.Tm.Comp.Scales
import Verif.Lemmas.Tm.Comp.Region2

/-! T(p, h) in region 2b, part 2 (generated subdivisions, checked in the kernel) -/

namespace If97.Tm
set_option maxRecDepth 100000

def ph2b_t12 : Tr4 := .x (.x (.x (.x .a (.y (.x .a (.y .a .d)) .d)) (.y (.y (.x (.y (.x .a (.y .a .d)) .d) (.y (.y (.y .a .d) .d) .d)) .d) .d)) (.y (.y (.x (.y (.x (.y (.x (.y .a .d) .a) .d) (.y .a .d)) .d) (.x (.y .a .d) .a)) .d) .d)) (.y (.x (.y (.x .a .a) .d) (.x .a (.y .a .d))) (.y (.x .d .d) (.y (.x .d .d) (.x .d .d))))
theorem ph2b_c12 : chk 200000 1 3400000 2000000 1 4 (vPh2b sk7 q8 q9 200000 1 ph2b_t12) = true := by decide +kernel
def ph2b_t13 : Tr4 := .x (.x (.x (.x (.x .a .d) .d) .d) .d) (.y (.x .d .d) (.x .d .d))
theorem ph2b_c13 : chk 200000 1 3400000 2000000 3 4 (vPh2b sk7 q8 q9 200000 1 ph2b_t13) = true := by decide +kernel
def ph2b_t14 : Tr4 := .x (.y (.y (.y .a .a) .a) (.y .a .a)) (.y (.y .a .a) (.y (.y .a (.x .a .a)) (.y (.x .a .a) .a)))
theorem ph2b_c14 : chk 216300 1 3816300 2000000 1 4 (vPh2b sk8 q0 q10 216300 1 ph2b_t14) = true := by decide +kernel
def ph2b_t15 : Tr4 := .y .a .a
theorem ph2b_c15 : chk 216300 1 7416300 4000000 5 8 (vPh2b sk8 q0 q10 216300 1 ph2b_t15) = true := by decide +kernel
def ph2b_t16 : Tr4 := .y .a (.y .a (.y (.x .a .a) (.x .a .a)))
theorem ph2b_c16 : chk 216300 1 7416300 4000000 13 16 (vPh2b sk8 q0 q10 216300 1 ph2b_t16) = true := by decide +kernel
def ph2b_t17 : Tr4 := .y (.y (.x .a .a) (.x .a .a)) (.x .a .a)
theorem ph2b_c17 : chk 216300 1 7416300 4000000 29 32 (vPh2b sk8 q0 q10 216300 1 ph2b_t17) = true := by decide +kernel
def ph2b_t18 : Tr4 := .x (.y .a (.y (.x .a .a) (.x .a .a))) .a
theorem ph2b_c18 : chk 216300 1 7416300 4000000 61 64 (vPh2b sk8 q0 q10 216300 1 ph2b_t18) = true := by decide +kernel
def ph2b_t19 : Tr4 := .y (.x (.y (.x .a .a) (.x .a .a)) (.y (.x .a .a) (.x .a .a))) (.x (.y (.x .a .a) (.x .a .a)) (.y (.y (.x .a .a) (.x .a .a)) (.y (.x .a .a) (.x .a .a))))
theorem ph2b_c19 : chk 216300 1 7416300 4000000 125 128 (vPh2b sk8 q0 q10 216300 1 ph2b_t19) = true := by decide +kernel

end If97.Tm
