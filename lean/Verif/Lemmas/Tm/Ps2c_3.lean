import Verif.Lemmas.Tm.Comp.Scales
import Verif.Lemmas.Tm.Comp.Region2s

/-! T(p, s) in region 2c, part 3 (generated subdivisions, checked in the kernel) -/

namespace If97.Tm
set_option maxRecDepth 100000

def ps2c_t14 : Tr4 := .y (.x (.y (.x .a .a) (.y (.x .a .a) (.x .a .a))) (.y (.x .a .a) (.x .a .a))) (.x (.y (.y (.x .a .a) (.x .a .a)) (.y (.y (.x .a .a) (.x .a .a)) (.y (.x .a .a) (.x .a .a)))) (.y (.x .a .a) (.y (.x .a .a) (.x .a .a))))
theorem ps2c_c14 : chk 216300 1 7848900 4000000 15 16 (vPs2c sk8 qs1 q11 lcU2 216300 1 ps2c_t14) = true := by decide +kernel
def ps2c_t15 : Tr4 := .y (.x .d .d) (.x (.y .d (.y .d (.y .d (.y .d (.x .a .a))))) (.y .d (.y .d (.y .d (.y .d (.x .a .a))))))
theorem ps2c_c15 : chk 283700 1 4316300 2000000 1 2 (vPs2c sk9 q0 qs2 lcU3 283700 1 ps2c_t15) = true := by decide +kernel
def ps2c_t16 : Tr4 := .x (.y (.x (.y .a (.x .a .a)) .a) (.x (.y (.x .a .a) (.x .a .a)) (.y (.x .a .a) (.x .a .a)))) (.y (.y (.x .a .a) (.x .a .a)) (.x (.y (.x .a .a) (.x .a .a)) (.y .a (.x .a .a))))
theorem ps2c_c16 : chk 283700 1 4316300 2000000 1 4 (vPs2c sk9 qs2 q13 lcU3 283700 1 ps2c_t16) = true := by decide +kernel
def ps2c_t17 : Tr4 := .y (.x (.x (.y .a (.x .a .a)) .a) (.x .a .a)) (.x (.x (.y (.x .a .a) (.x .a .a)) (.y (.y .a .a) (.y .a (.x .a .a)))) (.y (.x .a .a) (.x .a .a)))
theorem ps2c_c17 : chk 283700 1 8348900 4000000 5 8 (vPs2c sk9 qs2 q13 lcU3 283700 1 ps2c_t17) = true := by decide +kernel

end If97.Tm
