import Verif.Lemmas.Tm.Comp.Scales
import Verif.Lemmas.Tm.Comp.Region2

/-! T(p, h) in region 2c, part 4 (generated subdivisions, checked in the kernel) -/

namespace If97.Tm
set_option maxRecDepth 100000

def ph2c_t16 : Tr4 := .y (.y (.y (.y (.y (.x .a .a) (.x .a .a)) (.x .a .a)) (.y (.x .a .a) (.x .a .a))) (.y (.x .a .a) (.x .a .a))) (.y (.x (.y .a .a) .a) (.x (.x .a .a) (.y (.x .a .a) (.x .a .a))))
theorem ph2c_c16 : chk 283700 1 8916300 4000000 1 8 (vPh2c sk9 q12 q13 283700 1 ph2c_t16) = true := by decide +kernel
def ph2c_t17 : Tr4 := .y (.x (.x .a (.y .a .a)) (.y (.x (.x .a .a) .a) (.x .a .a))) (.x (.y (.x .a .a) (.x .a .a)) (.y (.x .a .a) (.x .a .a)))
theorem ph2c_c17 : chk 283700 1 8916300 4000000 3 8 (vPh2c sk9 q12 q13 283700 1 ph2c_t17) = true := by decide +kernel
def ph2c_t18 : Tr4 := .x (.y (.x (.y (.x .a .a) (.x .a .a)) (.y .a (.x .a .a))) (.x (.y (.x .a .a) (.x .a .a)) (.y (.x .a .a) (.x .a .a)))) (.y (.y (.x .a .a) (.x .a .a)) (.y (.x (.x .a .a) .a) (.x (.y (.x .a .a) (.x .a .a)) (.y (.x .a .a) (.x .a .a)))))
theorem ph2c_c18 : chk 283700 1 8348900 4000000 5 8 (vPh2c sk9 q12 q13 283700 1 ph2c_t18) = true := by decide +kernel

end If97.Tm
