import Verif.Lemmas.Tm.Comp.Scales
import Verif.Lemmas.Tm.Comp.Region2s

/-! T(p, s) in region 2c, part 9 (generated subdivisions, checked in the kernel) -/

namespace If97.Tm
set_option maxRecDepth 100000

def ps2c_t40 : Tr4 := .x (.x (.y (.x .a .a) (.y (.x .a .a) (.y (.x .a .a) (.x .a .a)))) (.y (.y (.y (.x .a .a) (.x .a .a)) (.x .a .a)) (.x .a .a))) (.y (.x (.y (.x .a .a) (.x .a .a)) (.y (.x .a .a) (.x .a .a))) (.x (.x .a .a) (.x .a .a)))
theorem ps2c_c40 : chk 400000 1 10400000 4000000 63 64 (vPs2c sk10 qs3 q15 lcU4 400000 1 ps2c_t40) = true := by decide +kernel
def ps2c_t41 : Tr4 := .y (.x .d .d) (.x (.y .d (.x (.y .d (.y .d .a)) (.y .d .a))) (.y .d (.x (.y .d .a) (.y .d (.x .a (.y .d .a))))))
theorem ps2c_c41 : chk 462278 1 5862278 2000000 1 2 (vPs2c sk11 q0 qs4 lcU5 462278 1 ps2c_t41) = true := by decide +kernel
def ps2c_t42 : Tr4 := .y (.x (.y .a (.x .a .a)) (.y (.y .a .a) (.x .a .a))) (.x (.x .a .a) (.y (.x .a .a) (.x .a .a)))
theorem ps2c_c42 : chk 462278 1 11262278 4000000 1 4 (vPs2c sk11 qs4 q17 lcU5 462278 1 ps2c_t42) = true := by decide +kernel
def ps2c_t43 : Tr4 := .x (.y (.x .a .a) (.x .a (.y .a .a))) (.y (.x (.y .a .a) (.y (.x (.y .a .a) (.y (.y .a .a) .a)) (.y .a .a))) (.x (.x .a .a) (.y .a (.x .a (.y .a .a)))))
theorem ps2c_c43 : chk 462278 1 12186834 4000000 1 4 (vPs2c sk11 qs4 q17 lcU5 462278 1 ps2c_t43) = true := by decide +kernel

end If97.Tm
