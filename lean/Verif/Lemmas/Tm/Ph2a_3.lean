import Verif.Lemmas.Tm.Comp.Scales
import Verif.Lemmas.Tm.Comp.Region2

/-! T(p, h) in region 2a, part 3 (generated subdivisions, checked in the kernel) -/

namespace If97.Tm
set_option maxRecDepth 100000

def ph2a_t19 : Tr4 := .y (.y (.x .a .a) (.x .a .a)) (.y (.x (.x .a .a) (.x .a .a)) (.y (.x (.y (.x .a .a) (.y .a (.y .a (.x .a .a)))) (.x .a .a)) (.x (.y (.x .a .a) (.x .a .a)) (.y (.y (.x .a .a) (.x .a .a)) (.x .a .a)))))
theorem ph2a_c19 : chk 250000 1 2650000 4000000 15 16 (vPh2a sk3 q0 q4 250000 1 ph2a_t19) = true := by decide +kernel
def ph2a_t20 : Tr4 := .y .a .a
theorem ph2a_c20 : chk 250000 1 3150000 4000000 5 8 (vPh2a sk3 q0 q4 250000 1 ph2a_t20) = true := by decide +kernel
def ph2a_t21 : Tr4 := .y .a (.y (.x .a .a) (.x .a .a))
theorem ph2a_c21 : chk 250000 1 3150000 4000000 13 16 (vPh2a sk3 q0 q4 250000 1 ph2a_t21) = true := by decide +kernel
def ph2a_t22 : Tr4 := .y (.x .a .a) (.x .a .a)
theorem ph2a_c22 : chk 250000 1 3150000 4000000 29 32 (vPh2a sk3 q0 q4 250000 1 ph2a_t22) = true := by decide +kernel
def ph2a_t23 : Tr4 := .x .a (.y .a (.x .a .a))
theorem ph2a_c23 : chk 250000 1 3150000 4000000 61 64 (vPh2a sk3 q0 q4 250000 1 ph2a_t23) = true := by decide +kernel
def ph2a_t24 : Tr4 := .x (.x .a .a) (.y (.x .a .a) (.x .a .a))
theorem ph2a_c24 : chk 250000 1 3150000 4000000 125 128 (vPh2a sk3 q0 q4 250000 1 ph2a_t24) = true := by decide +kernel
def ph2a_t25 : Tr4 := .x (.y (.x .a .a) (.y (.x .a .a) (.x .a .a))) (.y (.x .a .a) (.y (.x .a .a) (.x .a .a)))
theorem ph2a_c25 : chk 250000 1 3150000 4000000 253 256 (vPh2a sk3 q0 q4 250000 1 ph2a_t25) = true := by decide +kernel
def ph2a_t26 : Tr4 := .y (.x (.y (.y (.x .a .a) (.y (.x .a .a) (.x .a .a))) (.y (.x .a .a) (.x .a .a))) (.y (.x .a .a) (.y (.x .a .a) (.x .a .a)))) (.y (.x (.x .a .a) (.y (.x .a .a) (.x .a .a))) (.x (.x .a .a) (.y (.x .a .a) (.y (.x .a .a) (.x .a .a)))))
theorem ph2a_c26 : chk 250000 1 3150000 4000000 255 256 (vPh2a sk3 q0 q4 250000 1 ph2a_t26) = true := by decide +kernel

end If97.Tm
