import Verif.Lemmas.Tm.Comp.Scales
import Verif.Lemmas.Tm.Comp.Region2s

/-! T(p, s) in region 2a, part 10 (generated subdivisions, checked in the kernel) -/

namespace If97.Tm
set_option maxRecDepth 100000

def ps2a_t57 : Tr4 := .y (.y (.x .a .a) (.x .a .a)) (.y (.y (.x .a .a) (.y (.x .a .a) (.y (.x .a .a) (.x .a .a)))) (.y (.y (.y (.x .a .a) (.y (.x .a .a) (.x .a .a))) (.y (.y (.x .a .a) (.x .a .a)) (.x .a .a))) (.y (.y (.x .a .a) (.x .a .a)) (.x .a .a))))
theorem ps2a_c57 : chk 250000 1 3650000 4000000 13 16 (vPs2a sk4 q0 q5 lcA4 250000 1 ps2a_t57) = true := by decide +kernel
def ps2a_t58 : Tr4 := .y (.y (.x (.y .a (.x .a .a)) (.y .a (.x .a .a))) (.x (.x .a .a) (.x .a .a))) (.y (.x (.x .a .a) (.y (.x .a .a) (.x .a .a))) (.x (.y (.x .a .a) (.x .a .a)) (.y (.x .a .a) (.y (.x .a .a) (.x .a .a)))))
theorem ps2a_c58 : chk 250000 1 3650000 4000000 29 32 (vPs2a sk4 q0 q5 lcA4 250000 1 ps2a_t58) = true := by decide +kernel
def ps2a_t59 : Tr4 := .y (.x (.y (.x .a .a) (.x .a .a)) (.y (.y (.x .a .a) (.x .a .a)) (.y (.x .a .a) (.x .a .a)))) (.x (.y (.x .a .a) (.x .a .a)) (.y (.y (.x .a .a) (.x .a .a)) (.x .a .a)))
theorem ps2a_c59 : chk 250000 1 3650000 4000000 61 64 (vPs2a sk4 q0 q5 lcA4 250000 1 ps2a_t59) = true := by decide +kernel

end If97.Tm
