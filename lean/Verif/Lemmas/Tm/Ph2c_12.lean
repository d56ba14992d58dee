import Verif.Lemmas.Tm.Comp.Scales
import Verif.Lemmas.Tm.Comp.Region2

/-! T(p, h) in region 2c, part 12 (generated subdivisions, checked in the kernel) -/

namespace If97.Tm
set_option maxRecDepth 100000

def ph2c_t46 : Tr4 := .x (.x .a (.y .a .a)) (.y (.x (.x .a .a) (.x .a .a)) (.x (.y (.x .a .a) .a) (.y (.y (.x .a .a) (.x .a .a)) (.y .a .a))))
theorem ph2c_c46 : chk 462278 1 22062278 8000000 61 64 (vPh2c sk11 q16 q17 462278 1 ph2c_t46) = true := by decide +kernel
def ph2c_t47 : Tr4 := .x (.x .a .a) (.y (.x .a .a) (.y (.x .a .a) (.x .a .a)))
theorem ph2c_c47 : chk 462278 1 22062278 8000000 125 128 (vPh2c sk11 q16 q17 462278 1 ph2c_t47) = true := by decide +kernel
def ph2c_t48 : Tr4 := .y (.x (.x .a .a) (.y (.x .a .a) (.y (.x .a .a) (.x .a .a)))) (.y (.x (.x .a .a) (.y (.x .a .a) (.x .a .a))) (.x (.y (.x .a .a) (.y (.x .a .a) (.x .a .a))) (.y (.y (.x .a .a) (.x .a .a)) (.y (.x .a .a) (.y (.x .a .a) (.x .a .a))))))
theorem ph2c_c48 : chk 462278 1 22062278 8000000 127 128 (vPh2c sk11 q16 q17 462278 1 ph2c_t48) = true := by decide +kernel
def ph2c_t49 : Tr4 := .x (.x (.y (.x .a .a) (.y (.x .a .a) (.x .a .a))) (.y .a .a)) (.x .a .a)
theorem ph2c_c49 : chk 462278 1 22986834 8000000 61 64 (vPh2c sk11 q16 q17 462278 1 ph2c_t49) = true := by decide +kernel

end If97.Tm
