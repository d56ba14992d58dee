import Verif.Lemmas.Tm.Comp.Scales
import Verif.Lemmas.Tm.Comp.Region2s

/-! T(p, s) in region 2a, part 11 (generated subdivisions, checked in the kernel) -/

namespace If97.Tm
set_option maxRecDepth 100000

def ps2a_t60 : Tr4 := .y (.x (.x .a .a) (.x .a .a)) (.x (.y (.x .a .a) (.y (.x .a .a) (.y (.x .a .a) (.x .a .a)))) (.y (.x .a .a) (.x .a .a)))
theorem ps2a_c60 : chk 250000 1 3650000 4000000 125 128 (vPs2a sk4 q0 q5 lcA4 250000 1 ps2a_t60) = true := by decide +kernel
def ps2a_t61 : Tr4 := .y (.x (.y (.y (.x .a .a) (.x .a .a)) (.x .a .a)) (.y (.x .a .a) (.x .a .a))) (.x (.y (.x .a .a) (.x .a .a)) (.y (.x .a .a) (.x .a .a)))
theorem ps2a_c61 : chk 250000 1 3650000 4000000 253 256 (vPs2a sk4 q0 q5 lcA4 250000 1 ps2a_t61) = true := by decide +kernel
def ps2a_t62 : Tr4 := .y (.x (.y (.x .a .a) (.x .a .a)) (.y (.x .a .a) (.x .a .a))) (.x (.y (.x .a .a) (.x .a .a)) (.y (.x .a .a) (.x .a .a)))
theorem ps2a_c62 : chk 250000 1 3650000 4000000 255 256 (vPs2a sk4 q0 q5 lcA4 250000 1 ps2a_t62) = true := by decide +kernel
def ps2a_t63 : Tr4 := .y .a (.y .a (.y (.y .a (.x .a .a)) (.x .a .a)))
theorem ps2a_c63 : chk 250000 1 4150000 4000000 5 8 (vPs2a sk4 q0 q5 lcA4 250000 1 ps2a_t63) = true := by decide +kernel
def ps2a_t64 : Tr4 := .y (.y (.x .a .a) (.x .a .a)) (.y (.x .a .a) (.x .a .a))
theorem ps2a_c64 : chk 250000 1 4150000 4000000 13 16 (vPs2a sk4 q0 q5 lcA4 250000 1 ps2a_t64) = true := by decide +kernel
def ps2a_t65 : Tr4 := .x (.y (.x .a .a) (.x .a .a)) (.x .a .a)
theorem ps2a_c65 : chk 250000 1 4150000 4000000 57 64 (vPs2a sk4 q0 q5 lcA4 250000 1 ps2a_t65) = true := by decide +kernel
def ps2a_t66 : Tr4 := .x (.y (.x .a .a) (.y (.x .a .a) (.x .a .a))) (.x .a .a)
theorem ps2a_c66 : chk 250000 1 4150000 4000000 117 128 (vPs2a sk4 q0 q5 lcA4 250000 1 ps2a_t66) = true := by decide +kernel
def ps2a_t67 : Tr4 := .x (.y (.x .a .a) (.x .a .a)) (.y (.x .a .a) (.y (.x .a .a) (.x .a .a)))
theorem ps2a_c67 : chk 250000 1 4150000 4000000 237 256 (vPs2a sk4 q0 q5 lcA4 250000 1 ps2a_t67) = true := by decide +kernel

end If97.Tm
