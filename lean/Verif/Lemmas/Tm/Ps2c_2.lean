import Verif.Lemmas.Tm.Comp.Scales
import Verif.Lemmas.Tm.Comp.Region2s

/-! T(p, s) in region 2c, part 2 (generated subdivisions, checked in the kernel) -/

namespace If97.Tm
set_option maxRecDepth 100000

def ps2c_t10 : Tr4 := .y (.x (.y (.x .a .a) (.x .a .a)) (.y (.x .a .a) (.y (.x .a .a) (.x .a .a)))) (.y (.x (.y (.x .a .a) (.x .a .a)) (.x .a .a)) (.x (.y (.x .a .a) (.x .a .a)) (.y (.x .a .a) (.x .a .a))))
theorem ps2c_c10 : chk 216300 1 7416300 4000000 7 8 (vPs2c sk8 qs1 q11 lcU2 216300 1 ps2c_t10) = true := by decide +kernel
def ps2c_t11 : Tr4 := .y (.x (.x .a .a) (.y (.x .a .a) (.x .a .a))) (.x (.y (.x .a .a) (.y (.x .a .a) (.x .a .a))) (.y (.x .a .a) (.y (.x .a .a) (.x .a .a))))
theorem ps2c_c11 : chk 216300 1 7848900 4000000 9 16 (vPs2c sk8 qs1 q11 lcU2 216300 1 ps2c_t11) = true := by decide +kernel
def ps2c_t12 : Tr4 := .x (.x .a .a) (.y (.y (.y (.y (.x .a .a) (.x .a .a)) (.y (.x .a .a) (.x .a .a))) (.y (.x .a .a) (.x .a .a))) (.x .a .a))
theorem ps2c_c12 : chk 216300 1 7848900 4000000 11 16 (vPs2c sk8 qs1 q11 lcU2 216300 1 ps2c_t12) = true := by decide +kernel
def ps2c_t13 : Tr4 := .y (.x (.x .a .a) (.x .a .a)) (.x (.y (.x .a .a) (.x .a .a)) (.y (.x .a .a) (.x .a .a)))
theorem ps2c_c13 : chk 216300 1 7848900 4000000 13 16 (vPs2c sk8 qs1 q11 lcU2 216300 1 ps2c_t13) = true := by decide +kernel

end If97.Tm
