import Verif.Lemmas.Tm.Comp.Scales
import Verif.Lemmas.Tm.Comp.Region2s

/-! T(p, s) in region 2a, part 0 (generated subdivisions, checked in the kernel) -/

namespace If97.Tm
set_option maxRecDepth 100000

def ps2a_t0 : Tr4 := .x (.y (.y (.y (.y (.y .a .a) .a) (.y .a .a)) (.x (.x .a .a) .a)) (.y (.x .a .a) (.x .a .a))) (.y (.y (.y (.y .a .a) .a) .a) (.y .a .a))
theorem ps2a_c0 : chk 92800 1 407200 2000000 1 4 (vPs2a sk0 q0 q1 lcA0 92800 1 ps2a_t0) = true := by decide +kernel
def ps2a_t1 : Tr4 := .y (.x .a .a) (.x (.y .a .a) (.y .a .a))
theorem ps2a_c1 : chk 92800 1 721600 4000000 5 8 (vPs2a sk0 q0 q1 lcA0 92800 1 ps2a_t1) = true := by decide +kernel
def ps2a_t2 : Tr4 := .y (.x .a .a) (.x .a (.y .a .a))
theorem ps2a_c2 : chk 92800 1 721600 4000000 13 16 (vPs2a sk0 q0 q1 lcA0 92800 1 ps2a_t2) = true := by decide +kernel
def ps2a_t3 : Tr4 := .y (.x (.y .a .a) (.y .a .a)) (.y (.x (.x (.y .a (.x .a .a)) (.y .a .a)) (.y .a (.y .a .a))) (.x (.y (.x (.x .a .a) (.y .a .a)) (.y (.x (.x .a .a) .a) (.x .a .a))) (.y (.x .a .a) (.y (.y .a .a) .a))))
theorem ps2a_c3 : chk 92800 1 721600 4000000 15 16 (vPs2a sk0 q0 q1 lcA0 92800 1 ps2a_t3) = true := by decide +kernel
def ps2a_t4 : Tr4 := .y (.x .a .a) (.y (.x .a .a) (.y (.x .a .a) (.x .a .a)))
theorem ps2a_c4 : chk 92800 1 907200 4000000 5 8 (vPs2a sk0 q0 q1 lcA0 92800 1 ps2a_t4) = true := by decide +kernel
def ps2a_t5 : Tr4 := .y (.y (.x .a .a) (.x .a .a)) (.y (.x .a .a) (.x .a .a))
theorem ps2a_c5 : chk 92800 1 907200 4000000 13 16 (vPs2a sk0 q0 q1 lcA0 92800 1 ps2a_t5) = true := by decide +kernel

end If97.Tm
