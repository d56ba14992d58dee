import Verif.Lemmas.Tm.Comp.Scales
import Verif.Lemmas.Tm.Comp.Region2s

/-! T(p, s) in region 2c, part 7 (generated subdivisions, checked in the kernel) -/

namespace If97.Tm
set_option maxRecDepth 100000

def ps2c_t31 : Tr4 := .x (.x (.y .a .a) (.y .a (.y .a (.x .a .a)))) (.y (.x .a .a) (.y (.x .a .a) (.x (.y (.x .a .a) (.x .a .a)) (.y (.x .a .a) (.y (.x .a .a) (.x .a .a))))))
theorem ps2c_c31 : chk 400000 1 10400000 4000000 5 8 (vPs2c sk10 qs3 q15 lcU4 400000 1 ps2c_t31) = true := by decide +kernel
def ps2c_t32 : Tr4 := .y (.x .a (.y .a .a)) (.y (.x .a (.y .a (.x .a .a))) (.x (.x .a .a) (.y (.y (.x .a .a) (.x .a .a)) (.y (.x .a .a) (.x .a .a)))))
theorem ps2c_c32 : chk 400000 1 20400000 8000000 25 32 (vPs2c sk10 qs3 q15 lcU4 400000 1 ps2c_t32) = true := by decide +kernel
def ps2c_t33 : Tr4 := .y (.x (.y (.x .a .a) (.x .a .a)) (.y (.x .a .a) (.x .a .a))) (.x (.y (.y (.x .a .a) (.x .a .a)) (.y (.x .a .a) (.x .a .a))) (.y (.y (.x .a .a) (.x .a .a)) (.y (.x .a .a) (.x .a .a))))
theorem ps2c_c33 : chk 400000 1 21200000 8000000 25 32 (vPs2c sk10 qs3 q15 lcU4 400000 1 ps2c_t33) = true := by decide +kernel
def ps2c_t34 : Tr4 := .x (.x .a .a) (.y (.y (.y (.x .a .a) (.x .a .a)) (.x .a .a)) (.x .a .a))
theorem ps2c_c34 : chk 400000 1 20400000 8000000 27 32 (vPs2c sk10 qs3 q15 lcU4 400000 1 ps2c_t34) = true := by decide +kernel
def ps2c_t35 : Tr4 := .y (.x (.y (.x .a .a) (.x .a .a)) (.y (.x .a .a) (.x .a .a))) (.x (.y (.y (.x .a .a) (.x .a .a)) (.y (.x .a .a) (.x .a .a))) (.x .a .a))
theorem ps2c_c35 : chk 400000 1 21200000 8000000 53 64 (vPs2c sk10 qs3 q15 lcU4 400000 1 ps2c_t35) = true := by decide +kernel

end If97.Tm
