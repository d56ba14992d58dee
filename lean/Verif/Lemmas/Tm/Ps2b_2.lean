import Verif.Lemmas.Tm.Comp.Scales
import Verif.Lemmas.Tm.Comp.Region2s

/-! T(p, s) in region 2b, part 2 (generated subdivisions, checked in the kernel) -/

namespace If97.Tm
set_option maxRecDepth 100000

def ps2b_t13 : Tr4 := .y (.x (.x (.y (.x .a .a) (.x (.x .a .d) .d)) (.y (.x .a .a) .d)) (.x (.x (.y .a .d) (.y (.y (.y .a .d) .d) .d)) (.y (.y (.y (.x .a .a) .d) .d) .d))) (.x (.x (.x (.x (.x .a .d) .d) .d) .d) (.x .d .d))
theorem ps2b_c13 : chk 200000 1 3400000 2000000 1 2 (vPs2b sk7 qs0 q9 lcU1 200000 1 ps2b_t13) = true := by decide +kernel
def ps2b_t14 : Tr4 := .x (.y (.y (.y .a .a) .a) (.y .a .a)) (.y (.y (.y .a .a) .a) .a)
theorem ps2b_c14 : chk 216300 1 3816300 2000000 1 4 (vPs2b sk8 q0 qs1 lcU2 216300 1 ps2b_t14) = true := by decide +kernel
def ps2b_t15 : Tr4 := .y (.y .a .a) (.y (.y .a (.x .a .a)) (.y (.y (.x .a .a) (.x .a .a)) (.y (.y (.x .a .a) (.x (.y (.x .a .a) (.x .a .a)) .a)) (.y (.x (.y (.x .a .a) (.x .a .a)) (.x .a .a)) (.x (.y (.x .a .a) (.x .a .a)) (.x .a .a))))))
theorem ps2b_c15 : chk 216300 1 7416300 4000000 3 4 (vPs2b sk8 q0 qs1 lcU2 216300 1 ps2b_t15) = true := by decide +kernel
def ps2b_t16 : Tr4 := .y (.y .a .a) (.y (.y .a (.y .a (.x .a .a))) (.y (.y (.y (.x .a .a) (.x .a .a)) (.y (.x .a .a) (.x .a .a))) (.y (.x .a .a) (.y (.x (.y .a .a) .a) (.x (.x .a .a) (.y .a (.x .a .a)))))))
theorem ps2b_c16 : chk 216300 1 7848900 4000000 3 4 (vPs2b sk8 q0 qs1 lcU2 216300 1 ps2b_t16) = true := by decide +kernel

end If97.Tm
