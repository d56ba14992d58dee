import Verif.Lemmas.Tm.Comp.Scales
import Verif.Lemmas.Tm.Comp.Region2

/-! T(p, h) in region 2a, part 4 (generated subdivisions, checked in the kernel) -/

namespace If97.Tm
set_option maxRecDepth 100000

def ph2a_t27 : Tr4 := .x (.y (.y .a .a) (.y .a .a)) (.y (.y .a .a) (.y (.y .a .a) .a))
theorem ph2a_c27 : chk 250000 1 1950000 2000000 1 4 (vPh2a sk4 q0 q5 250000 1 ph2a_t27) = true := by decide +kernel
def ph2a_t28 : Tr4 := .y .a .a
theorem ph2a_c28 : chk 250000 1 3650000 4000000 5 8 (vPh2a sk4 q0 q5 250000 1 ph2a_t28) = true := by decide +kernel
def ph2a_t29 : Tr4 := .y .a (.y (.x .a .a) (.x .a .a))
theorem ph2a_c29 : chk 250000 1 3650000 4000000 13 16 (vPh2a sk4 q0 q5 250000 1 ph2a_t29) = true := by decide +kernel
def ph2a_t30 : Tr4 := .y (.x .a .a) (.x .a .a)
theorem ph2a_c30 : chk 250000 1 3650000 4000000 29 32 (vPh2a sk4 q0 q5 250000 1 ph2a_t30) = true := by decide +kernel
def ph2a_t31 : Tr4 := .x (.y .a (.y .a (.x .a .a))) (.y .a (.x .a .a))
theorem ph2a_c31 : chk 250000 1 3650000 4000000 61 64 (vPh2a sk4 q0 q5 250000 1 ph2a_t31) = true := by decide +kernel
def ph2a_t32 : Tr4 := .x (.y (.x .a .a) (.y (.x .a .a) (.x .a .a))) (.x .a .a)
theorem ph2a_c32 : chk 250000 1 3650000 4000000 125 128 (vPh2a sk4 q0 q5 250000 1 ph2a_t32) = true := by decide +kernel
def ph2a_t33 : Tr4 := .y (.x (.y (.x .a .a) (.x .a .a)) (.x .a .a)) (.x (.y (.x .a .a) (.x .a .a)) (.y (.x .a .a) (.y (.x .a .a) (.x .a .a))))
theorem ph2a_c33 : chk 250000 1 3650000 4000000 253 256 (vPh2a sk4 q0 q5 250000 1 ph2a_t33) = true := by decide +kernel
def ph2a_t34 : Tr4 := .y (.x (.y (.x .a .a) (.x .a .a)) (.y (.y (.x .a .a) (.x .a .a)) (.y (.x .a .a) (.x .a .a)))) (.x (.y (.x .a .a) (.x .a .a)) (.y (.x .a .a) (.x .a .a)))
theorem ph2a_c34 : chk 250000 1 3650000 4000000 255 256 (vPh2a sk4 q0 q5 250000 1 ph2a_t34) = true := by decide +kernel

end If97.Tm
