import Verif.Lemmas.Tm.Comp.Scales
import Verif.Lemmas.Tm.Comp.Region2s

/-! T(p, s) in region 2a, part 15 (generated subdivisions, checked in the kernel) -/

namespace If97.Tm
set_option maxRecDepth 100000

def ps2a_t82 : Tr4 := .y (.x .a (.y .a (.x .a .a))) (.x (.y (.x .a .a) (.y (.x .a .a) (.y (.y (.x .a .a) (.y (.x .a .a) (.x .a .a))) (.x .a .a)))) (.y (.x .a .a) (.x .a .a)))
theorem ps2a_c82 : chk 314220 1 10999540 8000000 29 32 (vPs2a sk5 q0 q6 lcA5 314220 1 ps2a_t82) = true := by decide +kernel
def ps2a_t83 : Tr4 := .x (.y (.y (.y (.x .a .a) (.x .a .a)) (.x .a .a)) (.y (.x .a .a) (.x .a .a))) (.y (.x .a .a) (.x .a .a))
theorem ps2a_c83 : chk 314220 1 10371100 8000000 61 64 (vPs2a sk5 q0 q6 lcA5 314220 1 ps2a_t83) = true := by decide +kernel
def ps2a_t84 : Tr4 := .y (.x (.x .a .a) (.x .a .a)) (.x (.y (.x .a .a) (.y (.y (.x .a .a) (.x .a .a)) (.y (.x .a .a) (.y (.x .a .a) (.x .a .a))))) (.y (.x .a .a) (.y (.x .a .a) (.y (.x .a .a) (.x .a .a)))))
theorem ps2a_c84 : chk 314220 1 10371100 8000000 63 64 (vPs2a sk5 q0 q6 lcA5 314220 1 ps2a_t84) = true := by decide +kernel
def ps2a_t85 : Tr4 := .y (.x (.x .a .a) (.y (.y (.x .a .a) (.x .a .a)) (.x .a .a))) (.x (.y (.x .a .a) (.x .a .a)) (.y (.x .a .a) (.x (.y .a (.x .a .a)) (.y (.x .a .a) (.y (.x .a .a) (.x .a .a))))))
theorem ps2a_c85 : chk 314220 1 10999540 8000000 31 32 (vPs2a sk5 q0 q6 lcA5 314220 1 ps2a_t85) = true := by decide +kernel

end If97.Tm
