import Verif.Lemmas.Tm.Comp.Scales
import Verif.Lemmas.Tm.Comp.Region2s

/-! T(p, s) in region 2a, part 2 (generated subdivisions, checked in the kernel) -/

namespace If97.Tm
set_option maxRecDepth 100000

def ps2a_t12 : Tr4 := .x (.y (.x .a .a) (.x .a .a)) (.y (.x .a .a) (.y (.x .a .a) (.x .a .a)))
theorem ps2a_c12 : chk 150000 1 1150000 4000000 249 256 (vPs2a sk1 q0 q2 lcA1 150000 1 ps2a_t12) = true := by decide +kernel
def ps2a_t13 : Tr4 := .x (.y (.x .a .a) (.y (.x .a .a) (.x .a .a))) (.y (.x .a .a) (.x .a .a))
theorem ps2a_c13 : chk 150000 1 1150000 4000000 501 512 (vPs2a sk1 q0 q2 lcA1 150000 1 ps2a_t13) = true := by decide +kernel
def ps2a_t14 : Tr4 := .y (.x (.y (.x .a .a) (.y (.x .a .a) (.x .a .a))) (.y (.x .a .a) (.x .a .a))) (.x (.y (.y (.x .a .a) (.x .a .a)) (.y (.y (.x .a .a) (.x .a .a)) (.y (.x .a .a) (.x .a .a)))) (.y (.x .a .a) (.x .a .a)))
theorem ps2a_c14 : chk 150000 1 1150000 4000000 503 512 (vPs2a sk1 q0 q2 lcA1 150000 1 ps2a_t14) = true := by decide +kernel
def ps2a_t15 : Tr4 := .x (.y (.y (.y (.x .a .a) (.x .a .a)) (.y (.x .a .a) (.x .a .a))) (.y (.y (.x .a .a) (.x .a .a)) (.y (.x .a .a) (.x .a .a)))) (.y .a .a)
theorem ps2a_c15 : chk 150000 1 1150000 4000000 1009 1024 (vPs2a sk1 q0 q2 lcA1 150000 1 ps2a_t15) = true := by decide +kernel
def ps2a_t16 : Tr4 := .x (.y (.y (.y (.x .a .a) (.x .a .a)) (.y (.x .a .a) (.x .a .a))) (.y (.x .a .a) (.x .a .a))) .a
theorem ps2a_c16 : chk 150000 1 1150000 4000000 1011 1024 (vPs2a sk1 q0 q2 lcA1 150000 1 ps2a_t16) = true := by decide +kernel

end If97.Tm
