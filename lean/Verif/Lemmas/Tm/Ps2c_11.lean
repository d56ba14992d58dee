import Verif.Lemmas.Tm.Comp.Scales
import Verif.Lemmas.Tm.Comp.Region2s

/-! T(p, s) in region 2c, part 11 (generated subdivisions, checked in the kernel) -/

namespace If97.Tm
set_option maxRecDepth 100000

def ps2c_t47 : Tr4 := .x (.x (.y (.x .a .a) (.y (.x .a .a) (.x .a .a))) (.y (.x .a .a) (.x .a .a))) (.x (.y (.x .a .a) (.x .a .a)) (.y (.x .a .a) (.y (.x .a .a) (.x .a .a))))
theorem ps2c_c47 : chk 462278 1 11262278 4000000 29 32 (vPs2c sk11 qs4 q17 lcU5 462278 1 ps2c_t47) = true := by decide +kernel
def ps2c_t48 : Tr4 := .y (.x (.y (.x .a .a) (.x .a .a)) (.y (.x .a .a) (.y (.x .a .a) (.x .a .a)))) (.x (.y (.x .a .a) (.x .a .a)) (.y (.y (.x .a .a) (.x .a .a)) (.y (.x .a .a) (.x .a .a))))
theorem ps2c_c48 : chk 462278 1 22062278 8000000 61 64 (vPs2c sk11 qs4 q17 lcU5 462278 1 ps2c_t48) = true := by decide +kernel
def ps2c_t49 : Tr4 := .y (.x (.y (.x .a .a) (.x .a .a)) (.y (.x .a .a) (.x .a .a))) (.x (.x .a (.y .a (.x .a .a))) (.x (.y (.y .a .a) (.y (.x .a .a) (.x .a .a))) (.x .a .a)))
theorem ps2c_c49 : chk 462278 1 22062278 8000000 63 64 (vPs2c sk11 qs4 q17 lcU5 462278 1 ps2c_t49) = true := by decide +kernel
def ps2c_t50 : Tr4 := .x (.y (.y (.y (.x .a .a) (.x .a .a)) (.x .a .a)) (.x (.y .a .a) .a)) (.y (.y (.y (.x .a .a) (.x .a .a)) (.x .a .a)) (.x .a .a))
theorem ps2c_c50 : chk 462278 1 22986834 8000000 31 32 (vPs2c sk11 qs4 q17 lcU5 462278 1 ps2c_t50) = true := by decide +kernel

end If97.Tm
