import Verif.Lemmas.Tm.Comp.Scales
import Verif.Lemmas.Tm.Comp.Region2

/-! T(p, h) in region 2c, part 13 (generated subdivisions, checked in the kernel) -/

namespace If97.Tm
set_option maxRecDepth 100000

def ph2c_t50 : Tr4 := .y (.x (.y (.x .a .a) (.x .a .a)) (.x .a .a)) (.x (.y (.y (.x .a .a) (.x .a .a)) (.y (.x .a .a) (.y (.x .a .a) (.x .a .a)))) (.y (.x .a .a) (.y (.x .a .a) (.x (.y .a (.y .a (.x .a .a))) (.y (.x .a .a) (.x .a .a))))))
theorem ph2c_c50 : chk 462278 1 22986834 8000000 63 64 (vPh2c sk11 q16 q17 462278 1 ph2c_t50) = true := by decide +kernel
def ph2c_t51 : Tr4 := .x (.y (.x (.y .a (.x (.y .a .a) .a)) .a) (.x (.y (.x (.y .a .a) .a) .a) .a)) (.x (.y .a .a) (.y (.x .a (.x .a (.y (.x .a (.x .a (.y .a .a))) (.x .a (.y .a .a))))) (.x .a (.y .a .a))))
theorem ph2c_c51 : chk 462278 1 12186834 4000000 5 8 (vPh2c sk11 q16 q17 462278 1 ph2c_t51) = true := by decide +kernel
def ph2c_t52 : Tr4 := .y (.x .a .a) (.x (.y (.y .a (.y .a (.x .a .a))) (.x .a .a)) (.y .a (.y (.y (.x .a .a) (.x .a .a)) (.y (.y (.y (.x .a .a) (.x .a .a)) (.x .a .a)) (.y (.x .a .a) (.x .a .a))))))
theorem ph2c_c52 : chk 462278 1 23911390 8000000 13 16 (vPh2c sk11 q16 q17 462278 1 ph2c_t52) = true := by decide +kernel
def ph2c_t53 : Tr4 := .y (.x .a (.x .a .a)) (.x (.y .a (.y .a (.x .a .a))) (.y .a (.x .a .a)))
theorem ph2c_c53 : chk 462278 1 24835946 8000000 13 16 (vPh2c sk11 q16 q17 462278 1 ph2c_t53) = true := by decide +kernel

end If97.Tm
