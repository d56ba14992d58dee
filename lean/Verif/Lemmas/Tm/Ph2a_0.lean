import Verif.Lemmas.Tm.Comp.Scales
import Verif.Lemmas.Tm.Comp.Region2

/-! T(p, h) in region 2a, part 0 (generated subdivisions, checked in the kernel) -/

namespace If97.Tm
set_option maxRecDepth 100000

def ph2a_t0 : Tr4 := .x (.y (.y (.y .a .a) (.y .a .a)) (.y .a (.y .a .a))) (.y (.y (.y .a .a) .a) (.y .a .a))
theorem ph2a_c0 : chk 92800 1 407200 2000000 1 4 (vPh2a sk0 q0 q1 92800 1 ph2a_t0) = true := by decide +kernel
def ph2a_t1 : Tr4 := .y (.y .a (.y .a .a)) (.y (.y .a (.x (.y .a .a) .a)) (.y (.y .a .a) (.y (.y (.y .a .a) (.x (.y .a .a) .a)) (.y (.y (.x .a .a) (.x .a .a)) (.y .a (.y .a (.y (.x .a .a) (.x .a .a))))))))
theorem ph2a_c1 : chk 92800 1 721600 4000000 3 4 (vPh2a sk0 q0 q1 92800 1 ph2a_t1) = true := by decide +kernel
def ph2a_t2 : Tr4 := .y (.y .a .a) (.y .a (.y .a (.y (.y (.y .a .a) (.y (.x .a .a) (.x .a .a))) (.y (.y (.y (.y (.x .a .a) .a) .a) .a) (.y .a (.y .a (.y .a (.y (.y .a (.y .a (.x .a .a))) (.y (.y (.x .a .a) (.x .a .a)) (.y (.x .a .a) (.x .a .a)))))))))))
theorem ph2a_c2 : chk 92800 1 907200 4000000 3 4 (vPh2a sk0 q0 q1 92800 1 ph2a_t2) = true := by decide +kernel
def ph2a_t3 : Tr4 := .x (.y (.y (.y .a .a) .a) (.y .a .a)) (.y (.y (.y .a .a) .a) (.y .a .a))
theorem ph2a_c3 : chk 150000 1 650000 2000000 1 4 (vPh2a sk1 q0 q2 150000 1 ph2a_t3) = true := by decide +kernel
def ph2a_t4 : Tr4 := .y .a .a
theorem ph2a_c4 : chk 150000 1 1150000 4000000 5 8 (vPh2a sk1 q0 q2 150000 1 ph2a_t4) = true := by decide +kernel
def ph2a_t5 : Tr4 := .y .a .a
theorem ph2a_c5 : chk 150000 1 1150000 4000000 13 16 (vPh2a sk1 q0 q2 150000 1 ph2a_t5) = true := by decide +kernel
def ph2a_t6 : Tr4 := .y .a (.y (.x .a .a) (.x .a .a))
theorem ph2a_c6 : chk 150000 1 1150000 4000000 29 32 (vPh2a sk1 q0 q2 150000 1 ph2a_t6) = true := by decide +kernel
def ph2a_t7 : Tr4 := .y (.x .a .a) (.x (.y .a .a) .a)
theorem ph2a_c7 : chk 150000 1 1150000 4000000 61 64 (vPh2a sk1 q0 q2 150000 1 ph2a_t7) = true := by decide +kernel

end If97.Tm
