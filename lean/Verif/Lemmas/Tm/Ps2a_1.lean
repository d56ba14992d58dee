import Verif.Lemmas.Tm.Comp.Scales
import Verif.Lemmas.Tm.Comp.Region2s

/-! T(p, s) in region 2a, part 1 (generated subdivisions, checked in the kernel) -/

namespace If97.Tm
set_option maxRecDepth 100000

def ps2a_t6 : Tr4 := .y (.y (.y (.x .a .a) (.x .a .a)) (.y (.x .a .a) (.y (.x .a .a) (.x .a .a)))) (.y (.y (.y (.x .a .a) (.x .a .a)) (.y (.x .a .a) (.x .a .a))) (.y (.y (.x .a .a) (.x .a .a)) (.y (.y (.x .a .a) (.x .a .a)) (.y (.x .a .a) (.x .a .a)))))
theorem ps2a_c6 : chk 92800 1 907200 4000000 15 16 (vPs2a sk0 q0 q1 lcA0 92800 1 ps2a_t6) = true := by decide +kernel
def ps2a_t7 : Tr4 := .x (.y (.y (.y (.y (.y (.y .a .a) .a) .a) .a) (.y .a .a)) (.y (.x .a .a) (.x .a .a))) (.y (.y (.y (.y .a .a) .a) .a) (.y .a .a))
theorem ps2a_c7 : chk 150000 1 650000 2000000 1 4 (vPs2a sk1 q0 q2 lcA1 150000 1 ps2a_t7) = true := by decide +kernel
def ps2a_t8 : Tr4 := .y (.x .a .a) (.y (.x .a .a) (.y (.x .a .a) (.x .a .a)))
theorem ps2a_c8 : chk 150000 1 1150000 4000000 5 8 (vPs2a sk1 q0 q2 lcA1 150000 1 ps2a_t8) = true := by decide +kernel
def ps2a_t9 : Tr4 := .y (.x .a .a) (.x (.x .a .a) .a)
theorem ps2a_c9 : chk 150000 1 1150000 4000000 13 16 (vPs2a sk1 q0 q2 lcA1 150000 1 ps2a_t9) = true := by decide +kernel
def ps2a_t10 : Tr4 := .y (.x .a .a) (.x .a .a)
theorem ps2a_c10 : chk 150000 1 1150000 4000000 29 32 (vPs2a sk1 q0 q2 lcA1 150000 1 ps2a_t10) = true := by decide +kernel
def ps2a_t11 : Tr4 := .y (.x (.y (.x .a .a) (.x .a .a)) (.y .a (.y .a (.x .a .a)))) (.x (.y (.x .a .a) (.x .a .a)) (.y (.y (.x .a .a) (.x .a .a)) (.x .a .a)))
theorem ps2a_c11 : chk 150000 1 1150000 4000000 61 64 (vPs2a sk1 q0 q2 lcA1 150000 1 ps2a_t11) = true := by decide +kernel

end If97.Tm
