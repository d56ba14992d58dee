import Verif.Lemmas.Tm.Comp.Scales
import Verif.Lemmas.Tm.Comp.Region2s

/-! T(p, s) in region 2c, part 4 (generated subdivisions, checked in the kernel) -/

namespace If97.Tm
set_option maxRecDepth 100000

def ps2c_t18 : Tr4 := .x (.x (.y (.y (.x .a .a) (.x .a .a)) (.x .a .a)) (.y (.y (.x .a .a) (.x .a .a)) (.y (.x .a .a) (.x .a .a)))) (.y (.x (.y .a (.x .a .a)) .a) (.x (.y (.x .a .a) (.x .a .a)) (.y .a (.x .a .a))))
theorem ps2c_c18 : chk 283700 1 8348900 4000000 13 16 (vPs2c sk9 qs2 q13 lcU3 283700 1 ps2c_t18) = true := by decide +kernel
def ps2c_t19 : Tr4 := .x (.y (.x .a .a) (.x (.y .a .a) .a)) (.y (.y (.x .a .a) (.x .a .a)) (.y (.x .a .a) (.x .a .a)))
theorem ps2c_c19 : chk 283700 1 16414100 8000000 15 16 (vPs2c sk9 qs2 q13 lcU3 283700 1 ps2c_t19) = true := by decide +kernel
def ps2c_t20 : Tr4 := .y (.x (.x .a .a) (.y (.x .a .a) (.x .a .a))) (.y (.x (.y (.x .a .a) (.x .a .a)) (.x .a .a)) (.x (.y (.x .a .a) (.x .a .a)) (.y (.x .a .a) (.y (.x .a .a) (.x .a .a)))))
theorem ps2c_c20 : chk 283700 1 16981500 8000000 15 16 (vPs2c sk9 qs2 q13 lcU3 283700 1 ps2c_t20) = true := by decide +kernel
def ps2c_t21 : Tr4 := .y (.x (.x .a .a) (.y (.x .a .a) (.x .a .a))) (.x (.y (.x .a .a) (.x .a .a)) (.y (.x .a .a) (.x .a .a)))
theorem ps2c_c21 : chk 283700 1 8916300 4000000 5 8 (vPs2c sk9 qs2 q13 lcU3 283700 1 ps2c_t21) = true := by decide +kernel
def ps2c_t22 : Tr4 := .x (.y (.x .a .a) (.x .a .a)) (.y (.y (.x .a .a) (.y (.x .a .a) (.x .a .a))) (.x .a .a))
theorem ps2c_c22 : chk 283700 1 8916300 4000000 13 16 (vPs2c sk9 qs2 q13 lcU3 283700 1 ps2c_t22) = true := by decide +kernel

end If97.Tm
