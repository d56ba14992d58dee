import Verif.Lemmas.Tm.Comp.Scales
import Verif.Lemmas.Tm.Comp.Region2

/-! T(p, h) in region 2c, part 2 (generated subdivisions, checked in the kernel) -/

namespace If97.Tm
set_option maxRecDepth 100000

def ph2c_t9 : Tr4 := .y (.x (.y (.x .a .a) (.x .a .a)) (.y (.y (.x .a .a) (.x .a .a)) (.x .a .a))) (.x (.y (.x .a .a) (.x .a .a)) (.y (.x .a .a) (.x .a .a)))
theorem ph2c_c9 : chk 216300 1 7416300 4000000 5 8 (vPh2c sk8 q10 q11 216300 1 ph2c_t9) = true := by decide +kernel
def ph2c_t10 : Tr4 := .y (.x (.y (.x .a .a) (.x .a .a)) (.x .a .a)) (.x (.x .a .a) (.y (.x .a .a) (.x .a .a)))
theorem ph2c_c10 : chk 216300 1 7416300 4000000 13 16 (vPh2c sk8 q10 q11 216300 1 ph2c_t10) = true := by decide +kernel
def ph2c_t11 : Tr4 := .y (.x (.x .a (.y .a .a)) (.y (.x .a .a) (.x .a .a))) (.x (.y (.x .a .a) (.y (.x .a .a) (.x .a .a))) (.y (.x .a (.y .a .a)) (.y (.x .a .a) (.x .a .a))))
theorem ph2c_c11 : chk 216300 1 7416300 4000000 15 16 (vPh2c sk8 q10 q11 216300 1 ph2c_t11) = true := by decide +kernel
def ph2c_t12 : Tr4 := .y (.x (.x .a .a) (.y (.x .a .a) (.x .a .a))) (.x (.y (.x .a .a) (.x .a .a)) (.y (.y (.y (.x .a .a) (.y (.x .a .a) (.x .a .a))) (.x .a .a)) (.x .a .a)))
theorem ph2c_c12 : chk 216300 1 7848900 4000000 5 8 (vPh2c sk8 q10 q11 216300 1 ph2c_t12) = true := by decide +kernel

end If97.Tm
