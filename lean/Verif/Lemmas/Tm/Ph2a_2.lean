import Verif.Lemmas.Tm.Comp.Scales
import Verif.Lemmas.Tm.Comp.Region2

/-! T(p, h) in region 2a, part 2 (generated subdivisions, checked in the kernel) -/

namespace If97.Tm
set_option maxRecDepth 100000

def ph2a_t14 : Tr4 := .y (.y .a .a) (.y (.y .a (.y .a (.y .a (.y (.y .a (.x .a .a)) (.x .a .a))))) (.y (.y (.x .a .a) (.x .a .a)) (.y (.x .a .a) (.y (.x .a .a) (.y (.x .a .a) (.x .a .a))))))
theorem ph2a_c14 : chk 200000 1 1800000 4000000 3 4 (vPh2a sk2 q0 q3 200000 1 ph2a_t14) = true := by decide +kernel
def ph2a_t15 : Tr4 := .y (.y .a .a) (.y (.y .a (.y .a .a)) (.y (.y (.y (.x .a .a) (.x .a .a)) (.y (.x .a .a) (.x .a .a))) (.y (.y (.x .a .a) (.x .a .a)) (.y (.x .a .a) (.y (.x .a .a) (.x .a .a))))))
theorem ph2a_c15 : chk 200000 1 2200000 4000000 3 4 (vPh2a sk2 q0 q3 200000 1 ph2a_t15) = true := by decide +kernel
def ph2a_t16 : Tr4 := .x (.y (.y (.y .a .a) .a) (.y .a .a)) (.y (.y .a .a) (.y .a .a))
theorem ph2a_c16 : chk 250000 1 1450000 2000000 1 4 (vPh2a sk3 q0 q4 250000 1 ph2a_t16) = true := by decide +kernel
def ph2a_t17 : Tr4 := .y .a .a
theorem ph2a_c17 : chk 250000 1 2650000 4000000 5 8 (vPh2a sk3 q0 q4 250000 1 ph2a_t17) = true := by decide +kernel
def ph2a_t18 : Tr4 := .y (.x .a .a) (.y (.y (.x .a .a) (.y (.x .a .a) (.x .a .a))) (.y (.x .a .a) (.x .a .a)))
theorem ph2a_c18 : chk 250000 1 2650000 4000000 13 16 (vPh2a sk3 q0 q4 250000 1 ph2a_t18) = true := by decide +kernel

end If97.Tm
