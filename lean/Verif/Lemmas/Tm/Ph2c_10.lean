import Verif.Lemmas.Tm.Comp.Scales
import Verif.Lemmas.Tm.Comp.Region2

/-! T(p, h) in region 2c, part 10 (generated subdivisions, checked in the kernel) -/

namespace If97.Tm
set_option maxRecDepth 100000

def ph2c_t39 : Tr4 := .y (.x .d .d) (.x (.y .d (.y .d (.y .d (.x (.y .d .a) (.y .d (.x .a (.y .d (.x .a .a)))))))) (.y .d (.x (.y .d (.x (.y .d (.y .d (.x (.y .d .a) (.y .d .a)))) (.y .d (.x (.y .d .a) .a)))) (.x (.y .d (.x .a .a)) (.y .d (.x .a (.x .a (.y .d .a))))))))
theorem ph2c_c39 : chk 462278 1 5862278 2000000 1 2 (vPh2c sk11 q0 q16 462278 1 ph2c_t39) = true := by decide +kernel
def ph2c_t40 : Tr4 := .y (.y (.x (.y (.x (.y .a .a) (.y .a .a)) (.x .a .a)) (.y (.x .a .a) (.x .a .a))) (.x (.y (.x .a .a) .a) (.x .a .a))) (.x (.y (.x .a .a) (.x .a .a)) (.y .a (.y .a (.x .a .a))))
theorem ph2c_c40 : chk 462278 1 11262278 4000000 1 4 (vPh2c sk11 q16 q17 462278 1 ph2c_t40) = true := by decide +kernel
def ph2c_t41 : Tr4 := .y (.x (.y (.y (.x .a .a) .a) .a) (.y (.x (.x .a (.y .a .a)) (.x (.y .a .a) (.x .a .a))) (.x .a (.x .a .a)))) (.x (.y (.x .a .a) (.x .a (.y .a .a))) (.x (.y .a .a) (.y .a (.x .a .a))))
theorem ph2c_c41 : chk 462278 1 12186834 4000000 1 4 (vPh2c sk11 q16 q17 462278 1 ph2c_t41) = true := by decide +kernel

end If97.Tm
