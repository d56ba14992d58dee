import Verif.Lemmas.Tm.Comp.Scales
import Verif.Lemmas.Tm.Comp.Region2s

/-! T(p, s) in region 2a, part 7 (generated subdivisions, checked in the kernel) -/

namespace If97.Tm
set_option maxRecDepth 100000

def ps2a_t44 : Tr4 := .y (.y (.y (.x .a .a) (.x .a (.y .a (.x .a .a)))) (.x (.y (.y (.x .a .a) (.x .a .a)) (.x .a .a)) (.y (.x .a .a) (.x .a .a)))) (.x (.y (.y (.x .a .a) (.x .a .a)) (.x .a .a)) (.y (.x .a .a) (.x .a .a)))
theorem ps2a_c44 : chk 250000 1 2650000 4000000 29 32 (vPs2a sk3 q0 q4 lcA3 250000 1 ps2a_t44) = true := by decide +kernel
def ps2a_t45 : Tr4 := .y (.x (.y (.y (.x .a .a) (.x .a .a)) (.y (.x .a .a) (.x .a .a))) (.y (.x .a .a) (.x .a .a))) (.x (.y (.y (.x .a .a) (.x .a .a)) (.y (.x .a .a) (.x .a .a))) (.y (.x .a .a) (.y (.x .a .a) (.x .a .a))))
theorem ps2a_c45 : chk 250000 1 2650000 4000000 61 64 (vPs2a sk3 q0 q4 lcA3 250000 1 ps2a_t45) = true := by decide +kernel
def ps2a_t46 : Tr4 := .y (.x (.y (.x .a .a) (.x .a .a)) (.y (.x .a .a) (.x .a .a))) (.x (.y (.x .a .a) (.x .a .a)) (.y (.y (.x .a .a) (.x .a .a)) (.y (.x .a .a) (.x .a .a))))
theorem ps2a_c46 : chk 250000 1 2650000 4000000 125 128 (vPs2a sk3 q0 q4 lcA3 250000 1 ps2a_t46) = true := by decide +kernel

end If97.Tm
