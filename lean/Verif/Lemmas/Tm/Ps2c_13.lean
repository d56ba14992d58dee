import Verif.Lemmas.Tm.Comp.Scales
import Verif.Lemmas.Tm.Comp.Region2s

/-! T(p, s) in region 2c, part 13 (generated subdivisions, checked in the kernel) -/

namespace If97.Tm
set_option maxRecDepth 100000

def ps2c_t55 : Tr4 := .x (.y (.y (.x .a .a) (.x .a .a)) (.y (.x .a .a) (.y (.x .a .a) (.x (.x .a .a) (.x .a .a))))) (.y (.y (.x .a .a) (.x .a .a)) (.x (.y .a .a) .a))
theorem ps2c_c55 : chk 462278 1 23911390 8000000 31 32 (vPs2c sk11 qs4 q17 lcU5 462278 1 ps2c_t55) = true := by decide +kernel
def ps2c_t56 : Tr4 := .y (.x (.x (.y .a .a) .a) (.x .a (.y .a .a))) (.x (.y (.x .a .a) (.x .a .a)) (.y (.x .a .a) (.x .a .a)))
theorem ps2c_c56 : chk 462278 1 24835946 8000000 15 16 (vPs2c sk11 qs4 q17 lcU5 462278 1 ps2c_t56) = true := by decide +kernel

end If97.Tm
