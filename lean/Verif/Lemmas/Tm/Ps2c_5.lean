import Verif.Lemmas.Tm.Comp.Scales
import Verif.Lemmas.Tm.Comp.Region2s

/-! T(p, s) in region 2c, part 5 (generated subdivisions, checked in the kernel) -/

namespace If97.Tm
set_option maxRecDepth 100000

def ps2c_t23 : Tr4 := .x (.y (.x (.y (.x .a .a) (.x .a .a)) (.x .a .a)) (.x (.y (.x .a .a) (.x .a .a)) (.x .a .a))) (.x (.y (.x .a .a) (.x .a .a)) (.y (.x .a .a) (.x .a .a)))
theorem ps2c_c23 : chk 283700 1 8916300 4000000 15 16 (vPs2c sk9 qs2 q13 lcU3 283700 1 ps2c_t23) = true := by decide +kernel
def ps2c_t24 : Tr4 := .y (.x .d .d) (.x (.y .d (.y .d (.x (.y .d .a) .a))) (.y .d (.y .d (.x .a .a))))
theorem ps2c_c24 : chk 400000 1 5000000 2000000 1 2 (vPs2c sk10 q0 qs3 lcU4 400000 1 ps2c_t24) = true := by decide +kernel
def ps2c_t25 : Tr4 := .x (.y (.x (.y .a (.y .a (.x .a .a))) (.y .a .a)) (.x (.y (.x .a .a) (.x .a .a)) (.y (.x .a .a) (.x .a .a)))) (.y (.y (.y (.x .a .a) (.x .a .a)) (.y (.x .a .a) (.x .a .a))) (.x (.y (.x .a .a) (.x .a .a)) (.y (.x .a .a) (.x .a .a))))
theorem ps2c_c25 : chk 400000 1 5000000 2000000 1 4 (vPs2c sk10 qs3 q15 lcU4 400000 1 ps2c_t25) = true := by decide +kernel
def ps2c_t26 : Tr4 := .y (.x (.y (.x .a .a) (.x .a .a)) (.x .a .a)) (.y (.x (.x .a .a) (.x .a .a)) (.x (.x (.y .a .a) .a) (.x .a .a)))
theorem ps2c_c26 : chk 400000 1 9600000 4000000 5 8 (vPs2c sk10 qs3 q15 lcU4 400000 1 ps2c_t26) = true := by decide +kernel

end If97.Tm
