import Verif.Lemmas.Tm.Comp.Scales
import Verif.Lemmas.Tm.Comp.Region2s

/-! T(p, s) in region 2a, part 6 (generated subdivisions, checked in the kernel) -/

namespace If97.Tm
set_option maxRecDepth 100000

def ps2a_t39 : Tr4 := .y (.x (.x .a .a) (.y (.y (.x .a .a) (.x .a .a)) (.y (.y (.x .a .a) (.x .a .a)) (.y (.x .a .a) (.x .a .a))))) (.y (.x (.x .a .a) (.y (.x .a .a) (.x .a .a))) (.x (.y (.x .a .a) (.x .a .a)) (.y (.x .a .a) (.x .a .a))))
theorem ps2a_c39 : chk 200000 1 2200000 4000000 125 128 (vPs2a sk2 q0 q3 lcA2 200000 1 ps2a_t39) = true := by decide +kernel
def ps2a_t40 : Tr4 := .x (.x .a .a) (.y (.y (.x .a .a) (.x .a .a)) (.x .a .a))
theorem ps2a_c40 : chk 200000 1 2200000 4000000 127 128 (vPs2a sk2 q0 q3 lcA2 200000 1 ps2a_t40) = true := by decide +kernel
def ps2a_t41 : Tr4 := .x (.y (.y (.y .a .a) .a) (.y .a (.y .a (.x .a .a)))) (.y (.y .a .a) (.y .a .a))
theorem ps2a_c41 : chk 250000 1 1450000 2000000 1 4 (vPs2a sk3 q0 q4 lcA3 250000 1 ps2a_t41) = true := by decide +kernel
def ps2a_t42 : Tr4 := .y (.y (.y (.x .a .a) (.x .a .a)) (.x .a .a)) (.y (.y (.x .a .a) (.x .a .a)) (.y (.x .a .a) (.x .a .a)))
theorem ps2a_c42 : chk 250000 1 2650000 4000000 5 8 (vPs2a sk3 q0 q4 lcA3 250000 1 ps2a_t42) = true := by decide +kernel
def ps2a_t43 : Tr4 := .y (.y (.x .a .a) (.y (.x .a .a) (.y (.x .a .a) (.x .a .a)))) (.y (.y (.y (.x .a .a) (.x .a .a)) (.y (.x .a .a) (.x .a .a))) (.y (.y (.x .a .a) (.x .a .a)) (.y (.x .a .a) (.x .a .a))))
theorem ps2a_c43 : chk 250000 1 2650000 4000000 13 16 (vPs2a sk3 q0 q4 lcA3 250000 1 ps2a_t43) = true := by decide +kernel

end If97.Tm
