import Verif.Lemmas.Tm.Comp.Scales
import Verif.Lemmas.Tm.Comp.Region2s

/-! T(p, s) in region 2b, part 3 (generated subdivisions, checked in the kernel) -/

namespace If97.Tm
set_option maxRecDepth 100000

def ps2b_t17 : Tr4 := .y (.x (.y (.y (.x (.y (.x .a .a) .d) (.y (.x .a .a) .d)) (.x .d .d)) (.y (.y .d .d) (.x .d .d))) (.y (.y (.x (.y (.x .a .a) .d) (.y (.y (.x .a .a) .d) .d)) .d) (.y .d .d))) (.x (.y (.x .d .d) (.x .d .d)) (.y (.y (.y .d .d) (.y (.x .d .d) (.x .d .d))) (.y (.x .d .d) (.x .d .d))))
theorem ps2b_c17 : chk 216300 1 3816300 2000000 1 2 (vPs2b sk8 qs1 q11 lcU2 216300 1 ps2b_t17) = true := by decide +kernel
def ps2b_t18 : Tr4 := .x (.y (.y (.y (.y .a .a) .a) .a) .a) (.y (.y (.y .a .a) .a) .a)
theorem ps2b_c18 : chk 283700 1 4316300 2000000 1 4 (vPs2b sk9 q0 qs2 lcU3 283700 1 ps2b_t18) = true := by decide +kernel
def ps2b_t19 : Tr4 := .x (.y (.y .a (.y .a .a)) (.y (.y (.y .a .a) (.y (.x .a .a) (.x .a .a))) (.y (.y (.x .a .a) (.x .a .a)) (.x (.y .a (.y .a (.x .a .a))) (.y .a (.x .a .a)))))) (.y (.x .a .a) (.y (.y .a (.x .a .a)) (.y (.x .a .a) (.x .a .a))))
theorem ps2b_c19 : chk 283700 1 4316300 2000000 3 4 (vPs2b sk9 q0 qs2 lcU3 283700 1 ps2b_t19) = true := by decide +kernel
def ps2b_t20 : Tr4 := .y (.x (.y (.y (.x (.y (.x .a .a) .d) (.y (.x .a .a) .d)) .d) (.x .d .d)) (.y (.y (.x (.y (.x .a .a) .d) (.x .a .a)) .d) .d)) (.x (.y (.y (.x .d .d) (.x .d .d)) (.y (.x .d .d) (.x (.y (.x .d .d) (.x .d .d)) .d))) (.y (.x .d .d) (.x .d .d)))
theorem ps2b_c20 : chk 283700 1 4316300 2000000 1 2 (vPs2b sk9 qs2 q13 lcU3 283700 1 ps2b_t20) = true := by decide +kernel

end If97.Tm
