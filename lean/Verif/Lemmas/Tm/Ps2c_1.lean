import Verif.Lemmas.Tm.Comp.Scales
import Verif.Lemmas.Tm.Comp.Region2s

/-! T(p, s) in region 2c, part 1 (generated subdivisions, checked in the kernel) -/

namespace If97.Tm
set_option maxRecDepth 100000

def ps2c_t6 : Tr4 := .y (.x (.y .a .a) (.y (.x .a .a) (.x .a .a))) (.y (.x (.y (.y .a (.x .a .a)) (.x .a .a)) (.y (.x .a .a) (.x .a .a))) (.x (.y (.x .a .a) (.x .a .a)) (.y (.x .a .a) (.x .a .a))))
theorem ps2c_c6 : chk 200000 1 7000000 4000000 15 16 (vPs2c sk7 qs0 q9 lcU1 200000 1 ps2c_t6) = true := by decide +kernel
def ps2c_t7 : Tr4 := .y (.x .d .d) (.x (.y .d (.y .d (.y .d (.y .d (.x .a .a))))) (.y .d (.y .d (.y .d (.y .d (.x .a .a))))))
theorem ps2c_c7 : chk 216300 1 3816300 2000000 1 2 (vPs2c sk8 q0 qs1 lcU2 216300 1 ps2c_t7) = true := by decide +kernel
def ps2c_t8 : Tr4 := .x (.x (.y (.x .a .a) (.x .a .a)) (.y .a (.y (.x .a .a) (.x .a .a)))) (.y (.y (.x .a .a) (.x .a .a)) (.x (.y (.x .a .a) (.x .a .a)) (.y (.y .a .a) (.y (.x .a .a) (.x .a .a)))))
theorem ps2c_c8 : chk 216300 1 3816300 2000000 1 4 (vPs2c sk8 qs1 q11 lcU2 216300 1 ps2c_t8) = true := by decide +kernel
def ps2c_t9 : Tr4 := .x (.y (.x .a .a) (.x .a .a)) (.y (.y (.x .a .a) (.x .a .a)) (.y (.x .a .a) (.x .a .a)))
theorem ps2c_c9 : chk 216300 1 7416300 4000000 5 8 (vPs2c sk8 qs1 q11 lcU2 216300 1 ps2c_t9) = true := by decide +kernel

end If97.Tm
