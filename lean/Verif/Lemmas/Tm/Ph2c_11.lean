import Verif.Lemmas.Tm.Comp.Scales
import Verif.Lemmas.Tm.Comp.Region2

/-! T(p, h) in region 2c, part 11 (generated subdivisions, checked in the kernel) -/

namespace If97.Tm
set_option maxRecDepth 100000

def ph2c_t42 : Tr4 := .x (.x (.y .a .a) (.y .a .a)) (.y (.x (.y .a (.x .a .a)) (.y (.y .a .a) (.y (.x .a .a) (.x .a .a)))) (.y (.x (.x .a .a) (.y (.x .a .a) (.x .a .a))) (.x .a .a)))
theorem ph2c_c42 : chk 462278 1 11262278 4000000 5 8 (vPh2c sk11 q16 q17 462278 1 ph2c_t42) = true := by decide +kernel
def ph2c_t43 : Tr4 := .x (.y (.x .a .a) (.x .a .a)) (.y (.y .a (.x .a .a)) (.y (.x .a .a) (.x .a .a)))
theorem ph2c_c43 : chk 462278 1 22062278 8000000 13 16 (vPh2c sk11 q16 q17 462278 1 ph2c_t43) = true := by decide +kernel
def ph2c_t44 : Tr4 := .y (.y (.x .a .a) (.x (.y .a (.x .a .a)) .a)) (.y (.x (.y (.y (.x .a .a) (.x .a .a)) (.y (.x .a .a) (.x .a .a))) (.y (.y .a (.x .a .a)) (.x .a .a))) (.x (.y (.y (.x .a .a) (.x .a .a)) (.x .a .a)) (.x .a .a)))
theorem ph2c_c44 : chk 462278 1 22986834 8000000 13 16 (vPh2c sk11 q16 q17 462278 1 ph2c_t44) = true := by decide +kernel
def ph2c_t45 : Tr4 := .x (.x (.x .a .a) (.y (.x .a .a) (.x (.y .a .a) (.y .a (.y .a (.x .a .a)))))) (.x (.y (.y (.x .a .a) (.x .a .a)) (.x (.y .a (.x .a .a)) .a)) (.x .a .a))
theorem ph2c_c45 : chk 462278 1 11262278 4000000 29 32 (vPh2c sk11 q16 q17 462278 1 ph2c_t45) = true := by decide +kernel

end If97.Tm
