import Verif.Lemmas.Tm.Comp.Scales
import Verif.Lemmas.Tm.Comp.Region2

/-! T(p, h) in region 2c, part 1 (generated subdivisions, checked in the kernel) -/

namespace If97.Tm
set_option maxRecDepth 100000

def ph2c_t5 : Tr4 := .y (.x (.y (.x .a .a) (.x .a .a)) (.y (.x .a .a) (.x .a .a))) (.y (.x (.x .a .a) (.y (.x .a .a) (.x .a .a))) (.x (.y (.x .a .a) (.y (.x .a .a) (.x .a .a))) (.y (.x .a .a) (.y (.x .a .a) (.x .a .a)))))
theorem ph2c_c5 : chk 200000 1 7000000 4000000 7 8 (vPh2c sk7 q8 q9 200000 1 ph2c_t5) = true := by decide +kernel
def ph2c_t6 : Tr4 := .y (.x .d .d) (.x (.y .d (.y .d (.y .d (.y .d (.y .d (.x (.x .a .a) .a)))))) (.y .d (.y .d (.y .d (.y .d (.y .d (.x (.y .d .a) (.y .d (.y .d .a)))))))))
theorem ph2c_c6 : chk 216300 1 3816300 2000000 1 2 (vPh2c sk8 q0 q10 216300 1 ph2c_t6) = true := by decide +kernel
def ph2c_t7 : Tr4 := .y (.x (.y (.x .a .a) (.x .a .a)) (.y (.y .a (.x .a .a)) (.x .a .a))) (.y (.x (.y (.x .a .a) (.x .a .a)) (.x .a .a)) (.x (.y (.x .a .a) (.x .a .a)) (.x .a .a)))
theorem ph2c_c7 : chk 216300 1 7416300 4000000 1 4 (vPh2c sk8 q10 q11 216300 1 ph2c_t7) = true := by decide +kernel
def ph2c_t8 : Tr4 := .y (.y (.y (.x .a .a) (.x .a .a)) (.x (.x .a .a) .a)) (.x (.x .a .a) (.y (.x .a .a) (.x .a .a)))
theorem ph2c_c8 : chk 216300 1 7848900 4000000 1 4 (vPh2c sk8 q10 q11 216300 1 ph2c_t8) = true := by decide +kernel

end If97.Tm
