import Verif.Lemmas.Tm.Comp.Scales
import Verif.Lemmas.Tm.Comp.Region2s

/-! T(p, s) in region 2b, part 0 (generated subdivisions, checked in the kernel) -/

namespace If97.Tm
set_option maxRecDepth 100000

def ps2b_t0 : Tr4 := .x (.y (.y (.x (.y (.x (.y .a .a) .a) .a) (.y .a .a)) (.x (.x (.y .a .a) .a) .a)) (.x (.y (.x .a .a) .a) (.y .a .a))) (.y (.y (.x .a .a) (.y (.x .a .a) (.x .a .a))) (.y (.y (.x .a .a) (.x .a .a)) (.y (.x .a .a) (.x .a .a))))
theorem ps2b_c0 : chk 185800 1 3014200 2000000 1 4 (vPs2b sk6 q0 q7 lcU0 185800 1 ps2b_t0) = true := by decide +kernel
def ps2b_t1 : Tr4 := .y (.y (.x .a .a) (.x .a .a)) (.y (.x (.y .a .a) .a) (.y (.x (.x .a .a) .a) (.x (.y (.x .a .a) (.x (.y .a (.x .a .a)) .a)) (.y (.x .a .a) (.y (.x .a .a) (.y (.x .a .a) (.x .a .a)))))))
theorem ps2b_c1 : chk 185800 1 5842600 4000000 3 4 (vPs2b sk6 q0 q7 lcU0 185800 1 ps2b_t1) = true := by decide +kernel
def ps2b_t2 : Tr4 := .y (.y (.x .a .a) (.x .a .a)) (.y (.x .a .a) (.y (.x .a .a) (.x (.y (.x .a .a) (.y (.x .a .a) (.x .a .a))) (.y (.y .a (.x .a .a)) (.y (.x .a .a) (.x .a .a))))))
theorem ps2b_c2 : chk 185800 1 6214200 4000000 3 4 (vPs2b sk6 q0 q7 lcU0 185800 1 ps2b_t2) = true := by decide +kernel
def ps2b_t3 : Tr4 := .x (.y (.y (.y .a .a) .a) (.y (.y .a .a) .a)) (.y (.y (.y .a .a) .a) (.y .a .a))
theorem ps2b_c3 : chk 200000 1 3400000 2000000 1 4 (vPs2b sk7 q0 qs0 lcU1 200000 1 ps2b_t3) = true := by decide +kernel
def ps2b_t4 : Tr4 := .y (.y .a (.x .a .a)) (.x .a .a)
theorem ps2b_c4 : chk 200000 1 6600000 4000000 5 8 (vPs2b sk7 q0 qs0 lcU1 200000 1 ps2b_t4) = true := by decide +kernel

end If97.Tm
