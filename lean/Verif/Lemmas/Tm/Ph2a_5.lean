import Verif.Lemmas.Tm.Comp.Scales
import Verif.Lemmas.Tm.Comp.Region2

/-! T(p, h) in region 2a, part 5 (generated subdivisions, checked in the kernel) -/

namespace If97.Tm
set_option maxRecDepth 100000

def ph2a_t35 : Tr4 := .y (.y .a .a) (.y (.y .a (.x .a .a)) (.y (.y (.x .a .a) (.x .a .a)) (.y (.x (.y (.x .a .a) (.x .a .a)) (.x .a .a)) (.x (.y (.x .a .a) (.y (.x .a .a) (.y (.x .a .a) (.y (.y (.x .a .a) (.x .a .a)) (.x .a .a))))) (.x .a .a)))))
theorem ph2a_c35 : chk 250000 1 4150000 4000000 3 4 (vPh2a sk4 q0 q5 250000 1 ph2a_t35) = true := by decide +kernel
def ph2a_t36 : Tr4 := .x (.y (.y .a .a) (.y .a (.y .a .a))) (.y (.y (.y .a .a) .a) (.y (.x .a .a) .a))
theorem ph2a_c36 : chk 314220 1 2514220 2000000 1 4 (vPh2a sk5 q0 q6 314220 1 ph2a_t36) = true := by decide +kernel
def ph2a_t37 : Tr4 := .y .a (.y .a .a)
theorem ph2a_c37 : chk 314220 1 4714220 4000000 5 8 (vPh2a sk5 q0 q6 314220 1 ph2a_t37) = true := by decide +kernel
def ph2a_t38 : Tr4 := .y (.y (.y (.x .a .a) (.x .a .a)) (.y (.x .a .a) (.x .a .a))) (.y (.x (.y (.x .a .a) (.x .a .a)) (.y (.x .a .a) (.x .a .a))) (.x (.y (.x .a .a) (.y (.x .a .a) (.x .a .a))) (.y (.x .a .a) (.x .a (.y .a (.x .a .a))))))
theorem ph2a_c38 : chk 314220 1 4714220 4000000 7 8 (vPh2a sk5 q0 q6 314220 1 ph2a_t38) = true := by decide +kernel
def ph2a_t39 : Tr4 := .y (.x .a (.x .a (.y .a .a))) (.x .a (.x .a (.y .a .a)))
theorem ph2a_c39 : chk 314220 1 5342660 4000000 5 8 (vPh2a sk5 q0 q6 314220 1 ph2a_t39) = true := by decide +kernel
def ph2a_t40 : Tr4 := .x (.y .a .a) (.y .a (.x .a .a))
theorem ph2a_c40 : chk 314220 1 5342660 4000000 13 16 (vPh2a sk5 q0 q6 314220 1 ph2a_t40) = true := by decide +kernel

end If97.Tm
