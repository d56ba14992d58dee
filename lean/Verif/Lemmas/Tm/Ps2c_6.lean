import Verif.Lemmas.Tm.Comp.Scales
import Verif.Lemmas.Tm.Comp.Region2s

/-! T(p, s) in region 2c, part 6 (generated subdivisions, checked in the kernel) -/

namespace If97.Tm
set_option maxRecDepth 100000

def ps2c_t27 : Tr4 := .y (.y (.x (.y (.x .a .a) (.x .a .a)) (.y .a (.x .a .a))) (.x (.y (.x .a .a) (.x .a .a)) (.y (.x .a .a) (.x .a .a)))) (.x (.y (.y (.x .a .a) (.x .a .a)) (.y (.y (.x .a .a) (.x .a .a)) (.x .a .a))) (.y (.x .a .a) (.x .a .a)))
theorem ps2c_c27 : chk 400000 1 18800000 8000000 13 16 (vPs2c sk10 qs3 q15 lcU4 400000 1 ps2c_t27) = true := by decide +kernel
def ps2c_t28 : Tr4 := .y (.x (.y .a (.x .a .a)) (.y .a (.x .a .a))) (.x (.x .a .a) (.x .a .a))
theorem ps2c_c28 : chk 400000 1 19600000 8000000 13 16 (vPs2c sk10 qs3 q15 lcU4 400000 1 ps2c_t28) = true := by decide +kernel
def ps2c_t29 : Tr4 := .y (.x (.x .a .a) (.x .a .a)) (.y (.x (.x .a .a) (.y (.x .a .a) (.x .a .a))) (.y (.x (.x .a .a) (.x .a .a)) (.x (.y (.x .a .a) (.x .a .a)) (.y (.x .a .a) (.x .a .a)))))
theorem ps2c_c29 : chk 400000 1 18800000 8000000 15 16 (vPs2c sk10 qs3 q15 lcU4 400000 1 ps2c_t29) = true := by decide +kernel
def ps2c_t30 : Tr4 := .x (.y (.x .a .a) (.y (.x .a .a) (.y (.x .a .a) (.x .a .a)))) (.y (.x .a .a) (.y (.x .a .a) (.y (.x .a .a) (.x .a .a))))
theorem ps2c_c30 : chk 400000 1 19600000 8000000 15 16 (vPs2c sk10 qs3 q15 lcU4 400000 1 ps2c_t30) = true := by decide +kernel

end If97.Tm
