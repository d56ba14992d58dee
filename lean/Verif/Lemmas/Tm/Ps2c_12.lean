import Verif.Lemmas.Tm.Comp.Scales
import Verif.Lemmas.Tm.Comp.Region2s

/-! T(p, s) in region 2c, part 12 (generated subdivisions, checked in the kernel) -/

namespace If97.Tm
set_option maxRecDepth 100000

def ps2c_t51 : Tr4 := .x (.y (.x (.y .a .a) (.y .a .a)) (.x (.y (.x .a .a) (.y (.x .a .a) (.y (.x .a .a) (.x .a .a)))) (.y (.x .a .a) (.x .a .a)))) (.y (.x (.x .a .a) (.x .a (.y .a .a))) (.x (.y (.y .a .a) (.y (.x .a .a) (.x .a .a))) (.x .a (.y .a .a))))
theorem ps2c_c51 : chk 462278 1 12186834 4000000 5 8 (vPs2c sk11 qs4 q17 lcU5 462278 1 ps2c_t51) = true := by decide +kernel
def ps2c_t52 : Tr4 := .y (.y (.x (.y (.x .a .a) (.x .a .a)) (.y (.x .a .a) (.x .a .a))) (.x (.y (.x .a .a) (.x .a .a)) (.y (.x .a .a) (.x .a .a)))) (.x (.y (.y (.x .a .a) (.x .a .a)) (.y (.x .a .a) (.x .a .a))) (.y (.x .a .a) (.x .a .a)))
theorem ps2c_c52 : chk 462278 1 23911390 8000000 13 16 (vPs2c sk11 qs4 q17 lcU5 462278 1 ps2c_t52) = true := by decide +kernel
def ps2c_t53 : Tr4 := .x (.y (.x .a .a) (.x .a .a)) (.x (.y .a .a) (.y .a (.x .a .a)))
theorem ps2c_c53 : chk 462278 1 24835946 8000000 13 16 (vPs2c sk11 qs4 q17 lcU5 462278 1 ps2c_t53) = true := by decide +kernel
def ps2c_t54 : Tr4 := .x (.y (.x .a .a) (.y (.x .a .a) (.x .a .a))) (.y (.x .a .a) (.y (.x .a .a) (.x .a .a)))
theorem ps2c_c54 : chk 462278 1 23911390 8000000 29 32 (vPs2c sk11 qs4 q17 lcU5 462278 1 ps2c_t54) = true := by decide +kernel

end If97.Tm
