import Verif.Lemmas.Tm.Comp.Scales
import Verif.Lemmas.Tm.Comp.Region2

/-! T(p, h) in region 2b, part 8 (generated subdivisions, checked in the kernel) -/

namespace If97.Tm
set_option maxRecDepth 100000

def ph2b_t40 : Tr4 := .y (.y (.x .a .a) (.x (.x .a .a) (.y .a .a))) (.y (.x (.y (.x .a .a) (.x .a .a)) (.y (.x .a .a) (.x .a .a))) (.x (.x (.y .a .a) (.y .a .a)) (.y (.x .a .a) (.x .a .a))))
theorem ph2b_c40 : chk 462278 1 11262278 4000000 15 16 (vPh2b sk11 q0 q16 462278 1 ph2b_t40) = true := by decide +kernel
def ph2b_t41 : Tr4 := .x (.y (.x (.x .a .a) (.y (.x .a (.y (.x .a .a) .a)) (.y (.x .a .a) .a))) (.y .a .a)) (.x (.y (.y (.x (.y (.x .a .a) (.x .a .a)) .a) (.x .a .a)) .a) (.y .a (.x .a (.x .a (.y .a .a)))))
theorem ph2b_c41 : chk 462278 1 12186834 4000000 5 8 (vPh2b sk11 q0 q16 462278 1 ph2b_t41) = true := by decide +kernel
def ph2b_t42 : Tr4 := .x (.y .a (.x .a .a)) (.x .a (.y (.x .a .a) .a))
theorem ph2b_c42 : chk 462278 1 12186834 4000000 13 16 (vPh2b sk11 q0 q16 462278 1 ph2b_t42) = true := by decide +kernel
def ph2b_t43 : Tr4 := .x (.y .a (.x .a .a)) (.x (.y .a (.y .a .a)) (.x (.y .a .a) .a))
theorem ph2b_c43 : chk 462278 1 12186834 4000000 29 32 (vPh2b sk11 q0 q16 462278 1 ph2b_t43) = true := by decide +kernel
def ph2b_t44 : Tr4 := .x (.y (.x .a .a) (.y (.x .a .a) (.x .a .a))) (.x (.y (.x .a (.y .a (.x .a .a))) (.y (.x .a (.y .a .a)) (.x .a .a))) (.x (.y (.x (.y .a .a) (.y .a .a)) (.y (.x .a .a) .a)) (.x (.y .a .a) .a)))
theorem ph2b_c44 : chk 462278 1 12186834 4000000 31 32 (vPh2b sk11 q0 q16 462278 1 ph2b_t44) = true := by decide +kernel

end If97.Tm
