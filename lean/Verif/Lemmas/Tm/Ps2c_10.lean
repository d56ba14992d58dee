import Verif.Lemmas.Tm.Comp.Scales
import Verif.Lemmas.Tm.Comp.Region2s

/-! T(p, s) in region 2c, part 10 (generated subdivisions, checked in the kernel) -/

namespace If97.Tm
set_option maxRecDepth 100000

def ps2c_t44 : Tr4 := .x (.y (.x .a .a) (.x (.y (.x .a .a) (.x .a .a)) (.y (.x .a .a) (.x .a .a)))) (.y (.x .a (.y .a .a)) (.x (.y (.x .a .a) (.x .a .a)) (.y (.x .a .a) (.y (.x .a .a) (.x .a .a)))))
theorem ps2c_c44 : chk 462278 1 11262278 4000000 5 8 (vPs2c sk11 qs4 q17 lcU5 462278 1 ps2c_t44) = true := by decide +kernel
def ps2c_t45 : Tr4 := .y (.y (.x (.y (.x .a .a) (.y (.x .a .a) (.x .a .a))) (.x .a .a)) (.x (.y (.x .a .a) (.x .a .a)) (.y (.x .a .a) (.x .a .a)))) (.y (.x (.y (.x .a .a) (.x .a .a)) (.x .a .a)) (.x (.y (.x .a .a) (.x .a .a)) (.x .a .a)))
theorem ps2c_c45 : chk 462278 1 22062278 8000000 13 16 (vPs2c sk11 qs4 q17 lcU5 462278 1 ps2c_t45) = true := by decide +kernel
def ps2c_t46 : Tr4 := .y (.y (.x (.x .a .a) (.y (.x .a .a) (.x .a .a))) (.x (.y (.x .a .a) (.x .a .a)) (.y (.x .a .a) (.x .a .a)))) (.x (.y (.x .a .a) (.x .a .a)) (.y (.y (.y (.x .a .a) (.x .a .a)) (.y (.y (.x .a .a) (.x .a .a)) (.x .a .a))) (.x .a .a)))
theorem ps2c_c46 : chk 462278 1 22986834 8000000 13 16 (vPs2c sk11 qs4 q17 lcU5 462278 1 ps2c_t46) = true := by decide +kernel

end If97.Tm
