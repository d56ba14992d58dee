import Verif.Lemmas.Tm.Comp.Scales
import Verif.Lemmas.Tm.Comp.Region2s

/-! T(p, s) in region 2a, part 13 (generated subdivisions, checked in the kernel) -/

namespace If97.Tm
set_option maxRecDepth 100000

def ps2a_t71 : Tr4 := .y (.x (.y (.x .a .a) (.y (.x .a .a) (.x .a .a))) (.x .a .a)) (.y (.x (.y (.x .a .a) (.x .a .a)) (.y (.x .a .a) (.x .a .a))) (.x (.y (.x .a .a) (.x .a .a)) (.x .a .a)))
theorem ps2a_c71 : chk 250000 1 4150000 4000000 63 64 (vPs2a sk4 q0 q5 lcA4 250000 1 ps2a_t71) = true := by decide +kernel
def ps2a_t72 : Tr4 := .x (.y (.y .a .a) (.y .a .a)) (.y (.y (.y .a .a) .a) (.y .a (.x .a .a)))
theorem ps2a_c72 : chk 314220 1 2514220 2000000 1 4 (vPs2a sk5 q0 q6 lcA5 314220 1 ps2a_t72) = true := by decide +kernel
def ps2a_t73 : Tr4 := .y (.y (.x .a .a) (.y (.x .a .a) (.x .a .a))) (.y (.y (.x .a .a) (.x .a .a)) (.y (.y (.x .a .a) (.x .a .a)) (.y (.x .a .a) (.x .a .a))))
theorem ps2a_c73 : chk 314220 1 4714220 4000000 5 8 (vPs2a sk5 q0 q6 lcA5 314220 1 ps2a_t73) = true := by decide +kernel
def ps2a_t74 : Tr4 := .y (.y (.x .a .a) (.x .a .a)) (.x (.x .a .a) (.x .a .a))
theorem ps2a_c74 : chk 314220 1 4714220 4000000 13 16 (vPs2a sk5 q0 q6 lcA5 314220 1 ps2a_t74) = true := by decide +kernel
def ps2a_t75 : Tr4 := .x (.y (.x .a .a) (.x .a .a)) (.y (.x .a .a) (.y (.x .a .a) (.y (.x .a .a) (.x .a .a))))
theorem ps2a_c75 : chk 314220 1 4714220 4000000 29 32 (vPs2a sk5 q0 q6 lcA5 314220 1 ps2a_t75) = true := by decide +kernel
def ps2a_t76 : Tr4 := .y (.x (.y .a (.x .a .a)) (.x .a .a)) (.x (.x .a .a) (.y (.x .a .a) (.y (.x .a .a) (.y (.x .a .a) (.y (.x .a .a) (.x .a .a))))))
theorem ps2a_c76 : chk 314220 1 9114220 8000000 31 32 (vPs2a sk5 q0 q6 lcA5 314220 1 ps2a_t76) = true := by decide +kernel

end If97.Tm
