import Verif.Lemmas.Tm.Comp.Scales
import Verif.Lemmas.Tm.Comp.Region2

/-! T(p, h) in region 2b, part 3 (generated subdivisions, checked in the kernel) -/

namespace If97.Tm
set_option maxRecDepth 100000

def ph2b_t20 : Tr4 := .y (.x (.y (.x .a .a) (.x .a .a)) (.y (.x .a .a) (.x .a .a))) (.x (.x .a .a) (.x .a .a))
theorem ph2b_c20 : chk 216300 1 7416300 4000000 127 128 (vPh2b sk8 q0 q10 216300 1 ph2b_t20) = true := by decide +kernel
def ph2b_t21 : Tr4 := .y (.y .a .a) (.y (.y .a (.y .a (.x .a .a))) (.y (.y (.x .a .a) (.x .a .a)) (.y (.x .a .a) (.x (.y (.y .a (.x .a .a)) (.x .a .a)) (.x .a .a)))))
theorem ph2b_c21 : chk 216300 1 7848900 4000000 3 4 (vPh2b sk8 q0 q10 216300 1 ph2b_t21) = true := by decide +kernel
def ph2b_t22 : Tr4 := .y (.x (.y (.y (.x (.x (.y .a .d) (.y .a .d)) (.y (.x .a .a) .d)) (.x .d .d)) (.y (.y (.x .d .d) (.x .d .d)) (.x .d .d))) (.y (.y (.x (.x .a .a) (.y (.x .a .a) .d)) .d) (.y .d .d))) (.x (.y (.y (.x .d .d) (.x .d .d)) (.x .d .d)) (.y (.y (.y .d (.x .d .d)) (.y (.x .d .d) (.x .d .d))) (.y (.x .d .d) (.x .d .d))))
theorem ph2b_c22 : chk 216300 1 3816300 2000000 1 2 (vPh2b sk8 q10 q11 216300 1 ph2b_t22) = true := by decide +kernel
def ph2b_t23 : Tr4 := .x (.y (.y .a (.y .a .a)) (.y (.y (.y (.x .a .a) (.x .a .a)) (.x (.y (.x .a .a) .a) (.x (.y .a .a) .a))) (.y (.x (.y .a .a) (.y .a .a)) .a))) (.y (.y (.y .a .a) (.y .a .a)) (.y (.x (.y .a (.x .a .a)) (.y .a .a)) (.x .a .a)))
theorem ph2b_c23 : chk 283700 1 4316300 2000000 1 4 (vPh2b sk9 q0 q12 283700 1 ph2b_t23) = true := by decide +kernel

end If97.Tm
