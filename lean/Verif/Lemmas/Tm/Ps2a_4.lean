import Verif.Lemmas.Tm.Comp.Scales
import Verif.Lemmas.Tm.Comp.Region2s

/-! T(p, s) in region 2a, part 4 (generated subdivisions, checked in the kernel) -/

namespace If97.Tm
set_option maxRecDepth 100000

def ps2a_t24 : Tr4 := .y (.x (.x .a .a) .a) (.x .a .a)
theorem ps2a_c24 : chk 150000 1 1450000 4000000 125 128 (vPs2a sk1 q0 q2 lcA1 150000 1 ps2a_t24) = true := by decide +kernel
def ps2a_t25 : Tr4 := .y (.x .a .a) (.y (.x .a .a) (.x .a .a))
theorem ps2a_c25 : chk 150000 1 1450000 4000000 253 256 (vPs2a sk1 q0 q2 lcA1 150000 1 ps2a_t25) = true := by decide +kernel
def ps2a_t26 : Tr4 := .y (.y (.x .a .a) (.x .a .a)) (.y (.y (.x .a .a) (.x .a .a)) (.y (.x .a .a) (.x .a .a)))
theorem ps2a_c26 : chk 150000 1 1450000 4000000 509 512 (vPs2a sk1 q0 q2 lcA1 150000 1 ps2a_t26) = true := by decide +kernel
def ps2a_t27 : Tr4 := .y (.y (.y (.x .a .a) (.x .a .a)) (.x (.y .a .a) .a)) (.y (.x (.y (.y (.y (.x .a .a) (.x .a .a)) (.y (.x .a .a) (.x .a .a))) (.y (.x .a .a) (.x .a .a))) .a) (.x (.y (.y (.x .a .a) (.x .a .a)) (.y (.x .a .a) (.x .a .a))) (.x .a .a)))
theorem ps2a_c27 : chk 150000 1 1450000 4000000 511 512 (vPs2a sk1 q0 q2 lcA1 150000 1 ps2a_t27) = true := by decide +kernel
def ps2a_t28 : Tr4 := .x (.y (.y (.y .a .a) .a) (.y .a (.y .a (.x .a .a)))) (.y (.y (.y .a .a) .a) (.y .a .a))
theorem ps2a_c28 : chk 200000 1 1000000 2000000 1 4 (vPs2a sk2 q0 q3 lcA2 200000 1 ps2a_t28) = true := by decide +kernel
def ps2a_t29 : Tr4 := .y (.x .a .a) (.y (.x .a .a) (.x .a .a))
theorem ps2a_c29 : chk 200000 1 1800000 4000000 5 8 (vPs2a sk2 q0 q3 lcA2 200000 1 ps2a_t29) = true := by decide +kernel
def ps2a_t30 : Tr4 := .y (.x .a .a) (.y (.x .a .a) (.x .a .a))
theorem ps2a_c30 : chk 200000 1 1800000 4000000 13 16 (vPs2a sk2 q0 q3 lcA2 200000 1 ps2a_t30) = true := by decide +kernel
def ps2a_t31 : Tr4 := .x .a .a
theorem ps2a_c31 : chk 200000 1 1800000 4000000 29 32 (vPs2a sk2 q0 q3 lcA2 200000 1 ps2a_t31) = true := by decide +kernel
def ps2a_t32 : Tr4 := .x (.x .a .a) (.x .a .a)
theorem ps2a_c32 : chk 200000 1 1800000 4000000 61 64 (vPs2a sk2 q0 q3 lcA2 200000 1 ps2a_t32) = true := by decide +kernel
def ps2a_t33 : Tr4 := .x (.y (.x .a .a) (.x .a .a)) (.x .a .a)
theorem ps2a_c33 : chk 200000 1 1800000 4000000 125 128 (vPs2a sk2 q0 q3 lcA2 200000 1 ps2a_t33) = true := by decide +kernel

end If97.Tm
