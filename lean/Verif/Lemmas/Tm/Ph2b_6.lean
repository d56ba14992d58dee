import Verif.Lemmas.Tm.Comp.Scales
import Verif.Lemmas.Tm.Comp.Region2

/-! T(p, h) in region 2b, part 6 (generated subdivisions, checked in the kernel) -/

namespace If97.Tm
set_option maxRecDepth 100000

def ph2b_t31 : Tr4 := .y (.x (.x .a (.y .a .a)) (.y (.x (.y .a (.x .a .a)) (.y .a .a)) (.x (.x .a (.y .a .a)) (.y (.x .a .a) .a)))) (.y (.x (.x .a .a) (.y (.x .a .a) .a)) (.y (.x .a .a) (.x .a .a)))
theorem ph2b_c31 : chk 400000 1 10400000 4000000 13 16 (vPh2b sk10 q0 q14 400000 1 ph2b_t31) = true := by decide +kernel
def ph2b_t32 : Tr4 := .y (.y (.y (.y (.x .a .a) (.x .a .a)) (.x .a .a)) (.x (.y .a .a) .a)) (.y (.x (.y (.x .a .a) (.y (.x .a .a) (.x .a .a))) (.y .a (.x .a .a))) (.x (.y (.x .a .a) (.x .a .a)) (.y (.y (.x .a .a) (.x .a .a)) (.x .a .a))))
theorem ph2b_c32 : chk 400000 1 10400000 4000000 15 16 (vPh2b sk10 q0 q14 400000 1 ph2b_t32) = true := by decide +kernel
def ph2b_t33 : Tr4 := .x (.y (.y (.y (.y (.x (.y (.y (.x .a .a) .d) .d) (.y (.x (.y .a .d) .a) .d)) .d) .d) .d) (.y (.y .d .d) (.x .d .d))) (.y (.y (.y (.y (.x (.x .a (.y .a .d)) (.y (.x (.x .a .a) (.x .a (.y .a .d))) .d)) .d) .d) .d) (.y .d .d))
theorem ph2b_c33 : chk 400000 1 5000000 2000000 1 4 (vPh2b sk10 q14 q15 400000 1 ph2b_t33) = true := by decide +kernel
def ph2b_t34 : Tr4 := .x (.y (.y (.x .d .d) (.x .d .d)) (.y (.x .d .d) (.x .d .d))) (.y (.y (.y (.x .d .d) (.x .d .d)) (.x .d .d)) (.y (.x .d .d) (.x .d .d)))
theorem ph2b_c34 : chk 400000 1 5000000 2000000 3 4 (vPh2b sk10 q14 q15 400000 1 ph2b_t34) = true := by decide +kernel

end If97.Tm
