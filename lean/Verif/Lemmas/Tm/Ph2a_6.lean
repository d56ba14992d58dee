import Verif.Lemmas.Tm.Comp.Scales
import Verif.Lemmas.Tm.Comp.Region2

/-! T(p, h) in region 2a, part 6 (generated subdivisions, checked in the kernel) -/

namespace If97.Tm
set_option maxRecDepth 100000

def ph2a_t41 : Tr4 := .x (.x .a .a) (.x (.y .a .a) (.x .a (.y .a .a)))
theorem ph2a_c41 : chk 314220 1 5342660 4000000 29 32 (vPh2a sk5 q0 q6 314220 1 ph2a_t41) = true := by decide +kernel
def ph2a_t42 : Tr4 := .x (.x .a .a) (.x (.y .a .a) (.x .a .a))
theorem ph2a_c42 : chk 314220 1 5342660 4000000 61 64 (vPh2a sk5 q0 q6 314220 1 ph2a_t42) = true := by decide +kernel
def ph2a_t43 : Tr4 := .y (.x (.y .a (.x .a .a)) (.y (.x .a .a) (.x .a .a))) (.y (.x (.y (.x .a .a) (.y (.x .a .a) (.x .a .a))) (.y (.x .a .a) (.x .a .a))) (.x (.y (.x .a .a) (.x .a .a)) (.y (.x .a .a) (.x .a .a))))
theorem ph2a_c43 : chk 314220 1 10371100 8000000 63 64 (vPh2a sk5 q0 q6 314220 1 ph2a_t43) = true := by decide +kernel
def ph2a_t44 : Tr4 := .y (.y (.x .a .a) (.x .a .a)) (.y (.x .a .a) (.y (.x .a .a) (.x (.y .a (.y .a (.x .a .a))) .a)))
theorem ph2a_c44 : chk 314220 1 21684860 16000000 63 64 (vPh2a sk5 q0 q6 314220 1 ph2a_t44) = true := by decide +kernel
def ph2a_t45 : Tr4 := .y (.x .a (.y .a (.x .a .a))) (.x (.y (.x .a (.y .a .a)) (.y (.x .a (.x .a .a)) (.x .a .a))) (.x (.y (.y .a (.x .a .a)) (.y (.x .a (.y .a .a)) (.y .a .a))) (.y (.x .a .a) (.x (.y .a .a) (.y .a .a)))))
theorem ph2a_c45 : chk 314220 1 22313300 16000000 63 64 (vPh2a sk5 q0 q6 314220 1 ph2a_t45) = true := by decide +kernel

end If97.Tm
