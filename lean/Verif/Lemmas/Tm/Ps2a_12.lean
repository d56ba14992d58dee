import Verif.Lemmas.Tm.Comp.Scales
import Verif.Lemmas.Tm.Comp.Region2s

/-! T(p, s) in region 2a, part 12 (generated subdivisions, checked in the kernel) -/

namespace If97.Tm
set_option maxRecDepth 100000

def ps2a_t68 : Tr4 := .y (.x (.y (.x .a .a) (.x .a .a)) (.y (.y (.x .a .a) (.x .a .a)) (.y (.y (.x .a .a) (.x .a .a)) (.y (.x .a .a) (.x .a .a))))) (.x (.y (.x .a .a) (.x .a .a)) (.y (.y (.x .a .a) (.x .a .a)) (.x .a .a)))
theorem ps2a_c68 : chk 250000 1 4150000 4000000 239 256 (vPs2a sk4 q0 q5 lcA4 250000 1 ps2a_t68) = true := by decide +kernel
def ps2a_t69 : Tr4 := .y (.y (.x (.y (.x .a .a) (.x .a .a)) (.x .a .a)) (.x (.y (.x .a .a) (.x .a .a)) (.x .a .a))) (.x (.y (.y (.x .a .a) (.y (.x .a .a) (.x .a .a))) (.y (.y (.x .a .a) (.x .a .a)) (.y (.x .a .a) (.x .a .a)))) (.x .a .a))
theorem ps2a_c69 : chk 250000 1 4150000 4000000 121 128 (vPs2a sk4 q0 q5 lcA4 250000 1 ps2a_t69) = true := by decide +kernel
def ps2a_t70 : Tr4 := .x (.y (.y (.y (.x .a .a) (.x .a .a)) (.y (.x .a .a) (.x .a .a))) (.y (.y (.x .a .a) (.x .a .a)) (.x .a .a))) (.y (.x .a .a) (.x .a .a))
theorem ps2a_c70 : chk 250000 1 4150000 4000000 123 128 (vPs2a sk4 q0 q5 lcA4 250000 1 ps2a_t70) = true := by decide +kernel

end If97.Tm
