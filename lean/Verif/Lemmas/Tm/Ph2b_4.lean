import Verif.Lemmas.Tm.Comp.Scales
import Verif.Lemmas.Tm.Comp.Region2

/-! T(p, h) in region 2b, part 4 (generated subdivisions, checked in the kernel) -/

namespace If97.Tm
set_option maxRecDepth 100000

def ph2b_t24 : Tr4 := .y (.y .a .a) (.y (.y (.x .a .a) (.x .a .a)) (.y (.x .a .a) (.y (.x (.y .a (.x .a .a)) .a) (.x (.y (.x .a .a) (.x .a .a)) (.y (.x .a .a) (.y (.x .a .a) (.x .a .a)))))))
theorem ph2b_c24 : chk 283700 1 8348900 4000000 3 4 (vPh2b sk9 q0 q12 283700 1 ph2b_t24) = true := by decide +kernel
def ph2b_t25 : Tr4 := .y (.y .a (.x .a .a)) (.y (.y (.x .a .a) (.y (.y (.x .a .a) (.x .a .a)) (.x .a .a))) (.y (.x .a .a) (.y (.x .a .a) (.y (.x .a .a) (.x (.x .a .a) .a)))))
theorem ph2b_c25 : chk 283700 1 8916300 4000000 3 4 (vPh2b sk9 q0 q12 283700 1 ph2b_t25) = true := by decide +kernel
def ph2b_t26 : Tr4 := .y (.x (.y (.y (.x (.y (.x .a .a) .d) (.y (.x .a .a) .d)) (.x .d .d)) (.x .d .d)) (.y (.y (.y (.x (.y (.x .a .a) .d) (.y (.y (.x .a .a) .d) .d)) .d) .d) (.y .d .d))) (.x (.y (.x .d .d) (.x (.x .d .d) .d)) (.y (.y (.x .d .d) (.x .d .d)) (.y (.x .d .d) (.x .d .d))))
theorem ph2b_c26 : chk 283700 1 4316300 2000000 1 2 (vPh2b sk9 q12 q13 283700 1 ph2b_t26) = true := by decide +kernel

end If97.Tm
