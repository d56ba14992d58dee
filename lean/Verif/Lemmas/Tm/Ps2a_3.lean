import Verif.Lemmas.Tm.Comp.Scales
import Verif.Lemmas.Tm.Comp.Region2s

/-! T(p, s) in region 2a, part 3 (generated subdivisions, checked in the kernel) -/

namespace If97.Tm
set_option maxRecDepth 100000

def ps2a_t17 : Tr4 := .y (.y (.x (.y (.x .a .a) (.x .a .a)) .a) (.x (.y (.x .a .a) (.x .a .a)) .a)) (.y (.x (.y (.x .a .a) (.x .a .a)) .a) (.x (.y (.x .a .a) (.x .a .a)) .a))
theorem ps2a_c17 : chk 150000 1 1150000 4000000 507 512 (vPs2a sk1 q0 q2 lcA1 150000 1 ps2a_t17) = true := by decide +kernel
def ps2a_t18 : Tr4 := .y (.y (.x (.y (.x .a .a) (.x .a .a)) .a) (.x (.y (.x .a .a) (.x .a .a)) .a)) (.y (.x (.x .a .a) (.y .a (.x .a .a))) (.x (.x .a .a) (.y (.x .a .a) (.x .a .a))))
theorem ps2a_c18 : chk 150000 1 1150000 4000000 509 512 (vPs2a sk1 q0 q2 lcA1 150000 1 ps2a_t18) = true := by decide +kernel
def ps2a_t19 : Tr4 := .y (.y (.x (.x .a .a) (.y (.x .a .a) (.x .a .a))) (.x (.x .a .a) (.y (.x .a .a) (.x .a .a)))) (.y (.x (.x .a .a) (.y (.x .a .a) (.x .a .a))) (.x (.x .a .a) (.y (.x .a .a) (.y (.x .a .a) (.x .a .a)))))
theorem ps2a_c19 : chk 150000 1 1150000 4000000 511 512 (vPs2a sk1 q0 q2 lcA1 150000 1 ps2a_t19) = true := by decide +kernel
def ps2a_t20 : Tr4 := .y (.x .a .a) (.y (.x .a .a) (.x .a .a))
theorem ps2a_c20 : chk 150000 1 1450000 4000000 5 8 (vPs2a sk1 q0 q2 lcA1 150000 1 ps2a_t20) = true := by decide +kernel
def ps2a_t21 : Tr4 := .x .a .a
theorem ps2a_c21 : chk 150000 1 1450000 4000000 13 16 (vPs2a sk1 q0 q2 lcA1 150000 1 ps2a_t21) = true := by decide +kernel
def ps2a_t22 : Tr4 := .y (.y (.x .a .a) (.x .a .a)) (.y (.x .a .a) (.x .a .a))
theorem ps2a_c22 : chk 150000 1 1450000 4000000 29 32 (vPs2a sk1 q0 q2 lcA1 150000 1 ps2a_t22) = true := by decide +kernel
def ps2a_t23 : Tr4 := .x (.y .a (.x .a .a)) .a
theorem ps2a_c23 : chk 150000 1 1450000 4000000 61 64 (vPs2a sk1 q0 q2 lcA1 150000 1 ps2a_t23) = true := by decide +kernel

end If97.Tm
