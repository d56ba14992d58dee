import Verif.Lemmas.Tm.Comp.Scales
import Verif.Lemmas.Tm.Comp.Region2

/-! T(p, h) in region 2c, part 6 (generated subdivisions, checked in the kernel) -/

namespace If97.Tm
set_option maxRecDepth 100000

def ph2c_t23 : Tr4 := .x (.y (.x (.y (.x .a .a) (.x .a .a)) (.y .a (.x .a .a))) (.x (.y (.x .a .a) (.x .a .a)) (.y (.x .a .a) (.x .a .a)))) (.y (.x .a .a) (.x (.y .a (.x .a .a)) (.y .a .a)))
theorem ph2c_c23 : chk 283700 1 8916300 4000000 13 16 (vPh2c sk9 q12 q13 283700 1 ph2c_t23) = true := by decide +kernel
def ph2c_t24 : Tr4 := .x (.y (.x (.y (.x .a .a) (.x .a .a)) (.y (.x .a .a) (.x .a .a))) (.x (.x .a .a) (.x .a .a))) (.y (.x (.y (.x .a .a) (.x .a .a)) (.y (.x .a .a) (.x .a .a))) (.x (.y (.x .a .a) (.x .a .a)) (.y (.y (.x .a .a) (.x .a .a)) (.x .a .a))))
theorem ph2c_c24 : chk 283700 1 8916300 4000000 15 16 (vPh2c sk9 q12 q13 283700 1 ph2c_t24) = true := by decide +kernel
def ph2c_t25 : Tr4 := .y (.x .d .d) (.x (.y .d (.y .d (.y .d (.y .d (.x (.y .d (.y .d .a)) (.y .d .a)))))) (.y .d (.y .d (.y .d (.x (.y .d .a) .a)))))
theorem ph2c_c25 : chk 400000 1 5000000 2000000 1 2 (vPh2c sk10 q0 q14 400000 1 ph2c_t25) = true := by decide +kernel
def ph2c_t26 : Tr4 := .x (.y (.y (.y .a .a) (.x (.y .a .a) .a)) (.x (.y (.x .a .a) .a) .a)) (.y (.y .a .a) (.x .a .a))
theorem ph2c_c26 : chk 400000 1 9600000 4000000 1 4 (vPh2c sk10 q14 q15 400000 1 ph2c_t26) = true := by decide +kernel

end If97.Tm
