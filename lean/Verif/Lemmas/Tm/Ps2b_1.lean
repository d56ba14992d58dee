import Verif.Lemmas.Tm.Comp.Scales
import Verif.Lemmas.Tm.Comp.Region2s

/-! T(p, s) in region 2b, part 1 (generated subdivisions, checked in the kernel) -/

namespace If97.Tm
set_option maxRecDepth 100000

def ps2b_t5 : Tr4 := .y (.x .a .a) (.x .a .a)
theorem ps2b_c5 : chk 200000 1 6600000 4000000 13 16 (vPs2b sk7 q0 qs0 lcU1 200000 1 ps2b_t5) = true := by decide +kernel
def ps2b_t6 : Tr4 := .x (.y .a (.y (.x .a .a) (.x .a .a))) (.y .a (.y .a (.x .a .a)))
theorem ps2b_c6 : chk 200000 1 6600000 4000000 29 32 (vPs2b sk7 q0 qs0 lcU1 200000 1 ps2b_t6) = true := by decide +kernel
def ps2b_t7 : Tr4 := .y (.x (.y (.x .a .a) (.x .a .a)) (.y (.x .a .a) (.x .a .a))) (.y (.x (.y (.x .a .a) (.y (.y (.x .a .a) (.x .a .a)) (.x .a .a))) (.y (.x .a .a) (.x .a .a))) (.x (.y (.y (.x .a .a) (.x .a .a)) (.x .a .a)) (.x .a .a)))
theorem ps2b_c7 : chk 200000 1 6600000 4000000 31 32 (vPs2b sk7 q0 qs0 lcU1 200000 1 ps2b_t7) = true := by decide +kernel
def ps2b_t8 : Tr4 := .y .a .a
theorem ps2b_c8 : chk 200000 1 7000000 4000000 5 8 (vPs2b sk7 q0 qs0 lcU1 200000 1 ps2b_t8) = true := by decide +kernel
def ps2b_t9 : Tr4 := .y .a (.x .a .a)
theorem ps2b_c9 : chk 200000 1 7000000 4000000 13 16 (vPs2b sk7 q0 qs0 lcU1 200000 1 ps2b_t9) = true := by decide +kernel
def ps2b_t10 : Tr4 := .y (.x .a .a) (.x (.y .a (.x .a .a)) .a)
theorem ps2b_c10 : chk 200000 1 7000000 4000000 29 32 (vPs2b sk7 q0 qs0 lcU1 200000 1 ps2b_t10) = true := by decide +kernel
def ps2b_t11 : Tr4 := .y (.x (.y (.x .a .a) (.x .a .a)) (.x .a .a)) (.x (.y (.x .a .a) (.x .a .a)) (.y (.x .a .a) (.x .a .a)))
theorem ps2b_c11 : chk 200000 1 7000000 4000000 61 64 (vPs2b sk7 q0 qs0 lcU1 200000 1 ps2b_t11) = true := by decide +kernel
def ps2b_t12 : Tr4 := .y (.x (.y (.x .a .a) (.x .a .a)) (.y (.x .a .a) (.x .a .a))) (.x (.y (.y (.x .a .a) (.x .a .a)) (.y (.x .a .a) (.x .a .a))) (.y (.x .a .a) (.x .a .a)))
theorem ps2b_c12 : chk 200000 1 7000000 4000000 63 64 (vPs2b sk7 q0 qs0 lcU1 200000 1 ps2b_t12) = true := by decide +kernel

end If97.Tm
