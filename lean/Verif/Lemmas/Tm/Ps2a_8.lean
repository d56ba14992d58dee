import Verif.Lemmas.Tm.Comp.Scales
import Verif.Lemmas.Tm.Comp.Region2s

/-! T(p, s) in region 2a, part 8 (generated subdivisions, checked in the kernel) -/

namespace If97.Tm
set_option maxRecDepth 100000

def ps2a_t47 : Tr4 := .y (.x (.y (.x .a .a) (.x .a .a)) (.y (.y (.x .a .a) (.y (.x .a .a) (.x .a .a))) (.y (.x .a .a) (.x .a .a)))) (.x (.y (.x .a .a) (.x .a .a)) (.x .a .a))
theorem ps2a_c47 : chk 250000 1 2650000 4000000 127 128 (vPs2a sk3 q0 q4 lcA3 250000 1 ps2a_t47) = true := by decide +kernel
def ps2a_t48 : Tr4 := .y (.y .a (.x .a .a)) (.y (.y (.x .a .a) (.x .a .a)) (.y (.x .a .a) (.x .a .a)))
theorem ps2a_c48 : chk 250000 1 3150000 4000000 5 8 (vPs2a sk3 q0 q4 lcA3 250000 1 ps2a_t48) = true := by decide +kernel
def ps2a_t49 : Tr4 := .y (.x .a .a) (.y (.x .a .a) (.x .a .a))
theorem ps2a_c49 : chk 250000 1 3150000 4000000 25 32 (vPs2a sk3 q0 q4 lcA3 250000 1 ps2a_t49) = true := by decide +kernel
def ps2a_t50 : Tr4 := .y (.y (.y (.x .a .a) (.y (.x .a .a) (.x .a .a))) (.y (.y (.y (.x .a .a) (.x .a .a)) (.y (.x .a .a) (.x .a .a))) (.y (.y (.x .a .a) (.x .a .a)) (.x .a .a)))) (.y (.y (.y (.x .a .a) (.x .a .a)) (.x .a .a)) (.y (.x .a .a) (.x .a .a)))
theorem ps2a_c50 : chk 250000 1 3150000 4000000 27 32 (vPs2a sk3 q0 q4 lcA3 250000 1 ps2a_t50) = true := by decide +kernel
def ps2a_t51 : Tr4 := .y (.y (.x (.y .a (.x .a .a)) (.y .a (.x .a .a))) (.x (.x .a .a) (.x .a .a))) (.x (.x .a .a) (.y (.x .a .a) (.x .a .a)))
theorem ps2a_c51 : chk 250000 1 3150000 4000000 29 32 (vPs2a sk3 q0 q4 lcA3 250000 1 ps2a_t51) = true := by decide +kernel

end If97.Tm
