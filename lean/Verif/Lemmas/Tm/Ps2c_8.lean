import Verif.Lemmas.Tm.Comp.Scales
import Verif.Lemmas.Tm.Comp.Region2s

/-! T(p, s) in region 2c, part 8 (generated subdivisions, checked in the kernel) -/

namespace If97.Tm
set_option maxRecDepth 100000

def ps2c_t36 : Tr4 := .y (.x (.y (.y (.x .a .a) (.x .a .a)) (.y (.x .a .a) (.x .a .a))) (.x .a .a)) (.x (.y (.x .a .a) (.x .a .a)) (.x .a .a))
theorem ps2c_c36 : chk 400000 1 21200000 8000000 55 64 (vPs2c sk10 qs3 q15 lcU4 400000 1 ps2c_t36) = true := by decide +kernel
def ps2c_t37 : Tr4 := .x (.x (.x .a .a) (.x .a .a)) (.y (.x (.y (.x .a .a) (.x .a .a)) (.y (.x .a .a) (.x .a .a))) (.y (.x (.x .a .a) (.x .a .a)) (.x (.y (.x .a .a) (.x .a .a)) (.y (.x .a .a) (.x .a .a)))))
theorem ps2c_c37 : chk 400000 1 10400000 4000000 29 32 (vPs2c sk10 qs3 q15 lcU4 400000 1 ps2c_t37) = true := by decide +kernel
def ps2c_t38 : Tr4 := .x (.x .a .a) (.y (.x .a .a) (.y (.x .a .a) (.x .a .a)))
theorem ps2c_c38 : chk 400000 1 20400000 8000000 61 64 (vPs2c sk10 qs3 q15 lcU4 400000 1 ps2c_t38) = true := by decide +kernel
def ps2c_t39 : Tr4 := .y (.x (.y (.y (.x .a .a) (.y (.x .a .a) (.x .a .a))) (.y (.x .a .a) (.x .a .a))) (.y (.x .a .a) (.x .a .a))) (.x (.y (.y (.x .a .a) (.x .a .a)) (.x .a .a)) (.y (.x .a .a) (.x .a .a)))
theorem ps2c_c39 : chk 400000 1 21200000 8000000 61 64 (vPs2c sk10 qs3 q15 lcU4 400000 1 ps2c_t39) = true := by decide +kernel

end If97.Tm
