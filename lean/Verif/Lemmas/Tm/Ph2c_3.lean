import Verif.Lemmas.Tm.Comp.Scales
import Verif.Lemmas.Tm.Comp.Region2

/-! T(p, h) in region 2c, part 3 (generated subdivisions, checked in the kernel) -/

namespace If97.Tm
set_option maxRecDepth 100000

def ph2c_t13 : Tr4 := .y (.x (.y (.x .a .a) (.x .a .a)) (.y (.x .a .a) (.x .a .a))) (.x (.y (.x (.y .a (.x .a .a)) (.y .a .a)) (.y (.x (.y .a .a) (.y .a .a)) (.y (.x .a .a) (.x .a .a)))) (.y (.x .a .a) (.y (.x .a .a) (.x .a (.x .a .a)))))
theorem ph2c_c13 : chk 216300 1 7848900 4000000 7 8 (vPh2c sk8 q10 q11 216300 1 ph2c_t13) = true := by decide +kernel
def ph2c_t14 : Tr4 := .y (.x .d .d) (.x (.y .d (.y .d (.y .d (.y .d (.y .d (.y .d (.y .d (.x (.y .d .a) .a)))))))) (.y .d (.y .d (.y .d (.y .d (.y .d (.y .d (.y .d (.x .a .a)))))))))
theorem ph2c_c14 : chk 283700 1 4316300 2000000 1 2 (vPh2c sk9 q0 q12 283700 1 ph2c_t14) = true := by decide +kernel
def ph2c_t15 : Tr4 := .y (.y (.y (.y (.x (.y .a .a) .a) (.x .a .a)) (.x (.y .a (.x .a .a)) .a)) (.x (.x .a .a) (.x .a .a))) (.y (.x (.y (.x .a .a) (.x .a .a)) (.x .a .a)) (.x (.y (.x .a .a) (.x .a .a)) (.y (.x .a .a) (.x .a .a))))
theorem ph2c_c15 : chk 283700 1 8348900 4000000 1 4 (vPh2c sk9 q12 q13 283700 1 ph2c_t15) = true := by decide +kernel

end If97.Tm
