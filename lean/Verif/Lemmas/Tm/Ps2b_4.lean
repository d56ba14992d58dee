import Verif.Lemmas.Tm.Comp.Scales
import Verif.Lemmas.Tm.Comp.Region2s

/-! T(p, s) in region 2b, part 4 (generated subdivisions, checked in the kernel) -/

namespace If97.Tm
set_option maxRecDepth 100000

def ps2b_t21 : Tr4 := .x (.y (.y .a .a) (.y .a .a)) (.y (.y .a .a) (.y .a .a))
theorem ps2b_c21 : chk 400000 1 5000000 2000000 1 4 (vPs2b sk10 q0 qs3 lcU4 400000 1 ps2b_t21) = true := by decide +kernel
def ps2b_t22 : Tr4 := .x (.y (.y (.x .a .a) (.x .a .a)) (.y (.y (.y (.x .a .a) (.x .a .a)) (.x .a .a)) (.x (.y .a (.x .a .a)) (.y .a (.y (.x .a .a) (.x .a .a)))))) (.y (.x (.y .a .a) .a) (.y (.y (.x .a .a) (.x .a .a)) (.x (.x .a .a) .a)))
theorem ps2b_c22 : chk 400000 1 5000000 2000000 3 4 (vPs2b sk10 q0 qs3 lcU4 400000 1 ps2b_t22) = true := by decide +kernel
def ps2b_t23 : Tr4 := .x (.y (.y (.y (.x (.x .a .a) (.y .a .d)) .d) .d) (.x .d .d)) (.y (.y (.y (.x (.y .a .d) (.y (.x .a .a) .d)) .d) .d) .d)
theorem ps2b_c23 : chk 400000 1 5000000 2000000 1 4 (vPs2b sk10 qs3 q15 lcU4 400000 1 ps2b_t23) = true := by decide +kernel
def ps2b_t24 : Tr4 := .x (.y (.y (.x .d .d) (.y (.x .d .d) (.y (.x .d .d) (.x .d .d)))) (.y (.y (.x .d .d) (.x .d .d)) (.x .d .d))) (.y (.y (.x .d .d) (.y (.x .d .d) (.x .d .d))) (.y (.y (.y (.x .d .d) (.x .d .d)) (.y (.x .d .d) (.y (.x .d .d) (.x .d .d)))) (.y (.y (.y (.x .d .d) (.x .d .d)) (.y (.x .d .d) (.x .d .d))) (.y (.y (.x .d .d) (.x .d .d)) (.x .d .d)))))
theorem ps2b_c24 : chk 400000 1 5000000 2000000 3 4 (vPs2b sk10 qs3 q15 lcU4 400000 1 ps2b_t24) = true := by decide +kernel

end If97.Tm
