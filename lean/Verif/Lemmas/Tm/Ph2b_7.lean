import Verif.Lemmas.Tm.Comp.Scales
import Verif.Lemmas.Tm.Comp.Region2

/-! T(p, h) in region 2b, part 7 (generated subdivisions, checked in the kernel) -/

namespace If97.Tm
set_option maxRecDepth 100000

def ph2b_t35 : Tr4 := .y (.x (.x (.y .a .a) .a) (.y .a .a)) (.y (.x .a .a) (.x (.x .a (.y .a .a)) (.x .a .a)))
theorem ph2b_c35 : chk 462278 1 11262278 4000000 1 4 (vPh2b sk11 q0 q16 462278 1 ph2b_t35) = true := by decide +kernel
def ph2b_t36 : Tr4 := .x (.x .a (.y (.x .a .a) .a)) (.x (.y (.x (.x .a (.y (.y .a .a) .a)) (.y (.x (.y .a .a) .a) (.y (.x .a .a) .a))) (.y .a .a)) (.y (.x (.x (.y .a .a) .a) .a) .a))
theorem ph2b_c36 : chk 462278 1 12186834 4000000 1 8 (vPh2b sk11 q0 q16 462278 1 ph2b_t36) = true := by decide +kernel
def ph2b_t37 : Tr4 := .x (.y .a (.x .a (.y .a (.x .a (.y .a (.x .a .a)))))) (.y (.y .a (.x .a .a)) (.x (.y (.y .a .a) (.x (.y .a .a) .a)) (.x .a .a)))
theorem ph2b_c37 : chk 462278 1 12186834 4000000 3 8 (vPh2b sk11 q0 q16 462278 1 ph2b_t37) = true := by decide +kernel
def ph2b_t38 : Tr4 := .y (.x (.y .a .a) (.x .a .a)) (.y (.x .a .a) (.x (.y .a (.x .a .a)) .a))
theorem ph2b_c38 : chk 462278 1 11262278 4000000 5 8 (vPh2b sk11 q0 q16 462278 1 ph2b_t38) = true := by decide +kernel
def ph2b_t39 : Tr4 := .x (.y (.x (.y (.x .a .a) (.x .a .a)) .a) (.y (.x .a .a) .a)) (.y .a (.x .a .a))
theorem ph2b_c39 : chk 462278 1 11262278 4000000 13 16 (vPh2b sk11 q0 q16 462278 1 ph2b_t39) = true := by decide +kernel

end If97.Tm
