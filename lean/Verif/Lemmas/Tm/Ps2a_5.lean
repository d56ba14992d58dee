import Verif.Lemmas.Tm.Comp.Scales
import Verif.Lemmas.Tm.Comp.Region2s

/-! T(p, s) in region 2a, part 5 (generated subdivisions, checked in the kernel) -/

namespace If97.Tm
set_option maxRecDepth 100000

def ps2a_t34 : Tr4 := .y (.y (.x (.x .a .a) (.x .a .a)) (.x (.y (.x .a .a) (.y (.x .a .a) (.y (.x .a .a) (.x .a .a)))) (.x .a .a))) (.x (.y (.y (.y (.x .a .a) (.x .a .a)) (.x .a .a)) (.y (.x .a .a) (.x .a .a))) (.x .a .a))
theorem ps2a_c34 : chk 200000 1 1800000 4000000 127 128 (vPs2a sk2 q0 q3 lcA2 200000 1 ps2a_t34) = true := by decide +kernel
def ps2a_t35 : Tr4 := .y (.x .a .a) (.y (.y (.x .a .a) (.x .a .a)) (.y (.x .a .a) (.x .a .a)))
theorem ps2a_c35 : chk 200000 1 2200000 4000000 5 8 (vPs2a sk2 q0 q3 lcA2 200000 1 ps2a_t35) = true := by decide +kernel
def ps2a_t36 : Tr4 := .y (.y (.x .a .a) (.y (.x .a .a) (.y (.x .a .a) (.x .a .a)))) (.y (.y (.y (.x .a .a) (.x .a .a)) (.y (.x .a .a) (.x .a .a))) (.y (.x .a .a) (.x .a .a)))
theorem ps2a_c36 : chk 200000 1 2200000 4000000 13 16 (vPs2a sk2 q0 q3 lcA2 200000 1 ps2a_t36) = true := by decide +kernel
def ps2a_t37 : Tr4 := .y (.x .a .a) (.x .a (.y .a (.x .a .a)))
theorem ps2a_c37 : chk 200000 1 2200000 4000000 29 32 (vPs2a sk2 q0 q3 lcA2 200000 1 ps2a_t37) = true := by decide +kernel
def ps2a_t38 : Tr4 := .x (.y .a (.x .a .a)) (.y (.x .a .a) (.y (.x .a .a) (.y (.x .a .a) (.x .a .a))))
theorem ps2a_c38 : chk 200000 1 2200000 4000000 61 64 (vPs2a sk2 q0 q3 lcA2 200000 1 ps2a_t38) = true := by decide +kernel

end If97.Tm
