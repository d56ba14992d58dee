import Verif.Lemmas.Tm.Comp.Scales
import Verif.Lemmas.Tm.Comp.Region2

/-! T(p, h) in region 2c, part 5 (generated subdivisions, checked in the kernel) -/

namespace If97.Tm
set_option maxRecDepth 100000

def ph2c_t19 : Tr4 := .x (.x (.y (.y (.x .a .a) (.x .a .a)) (.x .a .a)) (.y (.y (.x .a .a) (.x .a .a)) (.y (.x .a .a) (.x .a .a)))) (.y (.x (.y (.x .a .a) (.x .a .a)) (.y (.x .a .a) (.x .a .a))) (.x (.y (.x .a .a) (.x .a .a)) (.y (.x .a .a) (.x .a .a))))
theorem ph2c_c19 : chk 283700 1 8348900 4000000 13 16 (vPh2c sk9 q12 q13 283700 1 ph2c_t19) = true := by decide +kernel
def ph2c_t20 : Tr4 := .x (.y (.x .a .a) (.x (.y .a (.y .a (.x .a .a))) .a)) (.y (.x .a .a) (.y (.x .a .a) (.x .a .a)))
theorem ph2c_c20 : chk 283700 1 16414100 8000000 15 16 (vPh2c sk9 q12 q13 283700 1 ph2c_t20) = true := by decide +kernel
def ph2c_t21 : Tr4 := .y (.x (.x .a .a) (.y (.x .a .a) (.x .a .a))) (.y (.x (.y (.x .a .a) (.x .a .a)) (.x .a .a)) (.x (.y (.x .a .a) (.x .a .a)) (.y (.x .a .a) (.x .a .a))))
theorem ph2c_c21 : chk 283700 1 16981500 8000000 15 16 (vPh2c sk9 q12 q13 283700 1 ph2c_t21) = true := by decide +kernel
def ph2c_t22 : Tr4 := .y (.x (.y (.x .a .a) (.x .a .a)) (.y (.x .a .a) (.x .a .a))) (.x (.y (.x .a .a) (.x (.y .a .a) .a)) (.y (.x .a .a) (.x .a .a)))
theorem ph2c_c22 : chk 283700 1 8916300 4000000 5 8 (vPh2c sk9 q12 q13 283700 1 ph2c_t22) = true := by decide +kernel

end If97.Tm
