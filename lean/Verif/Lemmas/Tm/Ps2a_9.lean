import Verif.Lemmas.Tm.Comp.Scales
import Verif.Lemmas.Tm.Comp.Region2s

/-! T(p, s) in region 2a, part 9 (generated subdivisions, checked in the kernel) -/

namespace If97.Tm
set_option maxRecDepth 100000

def ps2a_t52 : Tr4 := .y (.x (.y (.x .a .a) (.x .a .a)) (.y (.x .a .a) (.x .a .a))) (.x (.y (.x .a .a) (.x .a .a)) (.y (.x .a .a) (.x .a .a)))
theorem ps2a_c52 : chk 250000 1 3150000 4000000 61 64 (vPs2a sk3 q0 q4 lcA3 250000 1 ps2a_t52) = true := by decide +kernel
def ps2a_t53 : Tr4 := .y (.x (.y (.x .a .a) (.x .a .a)) (.y (.x .a .a) (.x .a .a))) (.y (.x (.y (.x .a .a) (.x .a .a)) (.y (.x .a .a) (.y (.x .a .a) (.x .a .a)))) (.x (.y (.y (.x .a .a) (.x .a .a)) (.x .a .a)) (.x .a .a)))
theorem ps2a_c53 : chk 250000 1 3150000 4000000 125 128 (vPs2a sk3 q0 q4 lcA3 250000 1 ps2a_t53) = true := by decide +kernel
def ps2a_t54 : Tr4 := .x (.x .a .a) (.y (.x .a .a) (.x .a .a))
theorem ps2a_c54 : chk 250000 1 3150000 4000000 127 128 (vPs2a sk3 q0 q4 lcA3 250000 1 ps2a_t54) = true := by decide +kernel
def ps2a_t55 : Tr4 := .x (.y (.y .a .a) (.y .a .a)) (.y (.y .a .a) (.y .a .a))
theorem ps2a_c55 : chk 250000 1 1950000 2000000 1 4 (vPs2a sk4 q0 q5 lcA4 250000 1 ps2a_t55) = true := by decide +kernel
def ps2a_t56 : Tr4 := .y .a (.y (.y .a (.x .a .a)) (.y (.x .a .a) (.x .a .a)))
theorem ps2a_c56 : chk 250000 1 3650000 4000000 5 8 (vPs2a sk4 q0 q5 lcA4 250000 1 ps2a_t56) = true := by decide +kernel

end If97.Tm
