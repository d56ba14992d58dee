import Verif.Lemmas.Tm.Comp.Scales
import Verif.Lemmas.Tm.Comp.Region2s

/-! T(p, s) in region 2a, part 14 (generated subdivisions, checked in the kernel) -/

namespace If97.Tm
set_option maxRecDepth 100000

def ps2a_t77 : Tr4 := .y (.y (.y (.x .a .a) (.x .a (.y (.x .a .a) (.x .a .a)))) (.x (.x .a .a) (.y (.y (.x .a .a) (.x .a .a)) (.y (.x .a .a) (.x .a .a))))) (.x (.x .a .a) (.y (.y (.y (.x .a .a) (.x .a .a)) (.x .a .a)) (.y (.x .a .a) (.x .a .a))))
theorem ps2a_c77 : chk 314220 1 9742660 8000000 61 64 (vPs2a sk5 q0 q6 lcA5 314220 1 ps2a_t77) = true := by decide +kernel
def ps2a_t78 : Tr4 := .y (.x (.x .a .a) (.y (.x .a .a) (.x .a .a))) (.y (.x (.x .a .a) (.y (.x .a .a) (.x .a .a))) (.y (.x (.x .a .a) (.y (.x .a .a) (.x .a .a))) (.x (.y (.x .a .a) (.x .a .a)) (.y (.x .a .a) (.y (.x .a .a) (.x .a .a))))))
theorem ps2a_c78 : chk 314220 1 9742660 8000000 63 64 (vPs2a sk5 q0 q6 lcA5 314220 1 ps2a_t78) = true := by decide +kernel
def ps2a_t79 : Tr4 := .y (.x .a .a) (.x .a .a)
theorem ps2a_c79 : chk 314220 1 5342660 4000000 5 8 (vPs2a sk5 q0 q6 lcA5 314220 1 ps2a_t79) = true := by decide +kernel
def ps2a_t80 : Tr4 := .x (.x .a .a) (.y (.x .a .a) (.x .a .a))
theorem ps2a_c80 : chk 314220 1 5342660 4000000 13 16 (vPs2a sk5 q0 q6 lcA5 314220 1 ps2a_t80) = true := by decide +kernel
def ps2a_t81 : Tr4 := .y (.x .a .a) (.y (.x .a .a) (.y (.x .a (.x .a .a)) (.x (.y .a (.x .a .a)) (.x .a .a))))
theorem ps2a_c81 : chk 314220 1 10371100 8000000 29 32 (vPs2a sk5 q0 q6 lcA5 314220 1 ps2a_t81) = true := by decide +kernel

end If97.Tm
