import Verif.Lemmas.Tm.Comp.Scales
import Verif.Lemmas.Tm.Comp.Region2

/-! T(p, h) in region 2c, part 14 (generated subdivisions, checked in the kernel) -/

namespace If97.Tm
set_option maxRecDepth 100000

def ph2c_t54 : Tr4 := .x (.y (.x (.x .a .a) (.y (.y (.x .a .a) (.x .a .a)) (.y (.x .a .a) (.x .a .a)))) (.x (.x .a .a) (.y (.y (.x .a .a) (.x .a .a)) (.x .a .a)))) (.x (.y (.y (.x .a .a) (.x .a .a)) (.y (.x .a .a) (.x .a .a))) (.y (.x .a .a) (.x .a .a)))
theorem ph2c_c54 : chk 462278 1 12186834 4000000 29 32 (vPh2c sk11 q16 q17 462278 1 ph2c_t54) = true := by decide +kernel
def ph2c_t55 : Tr4 := .x (.y (.x .a .a) (.y (.x .a .a) (.y (.x .a .a) (.y (.x .a .a) (.x (.y (.y .a (.x .a .a)) (.y (.x .a .a) (.x .a .a))) (.x .a .a)))))) (.y (.y (.y (.x .a .a) (.x .a .a)) (.x .a .a)) (.x .a .a))
theorem ph2c_c55 : chk 462278 1 23911390 8000000 31 32 (vPh2c sk11 q16 q17 462278 1 ph2c_t55) = true := by decide +kernel
def ph2c_t56 : Tr4 := .y (.x (.x .a .a) (.y (.x .a .a) (.x .a .a))) (.x (.y (.x .a .a) (.x .a .a)) (.y (.y (.x .a .a) (.y (.x .a .a) (.x .a .a))) (.y (.y (.x .a .a) (.x .a .a)) (.y (.x .a .a) (.x .a .a)))))
theorem ph2c_c56 : chk 462278 1 24835946 8000000 31 32 (vPh2c sk11 q16 q17 462278 1 ph2c_t56) = true := by decide +kernel

end If97.Tm
