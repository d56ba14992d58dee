import Verif.Lemmas.Tm.Comp.Scales
import Verif.Lemmas.Tm.Comp.Region2

/-! T(p, h) in region 2b, part 0 (generated subdivisions, checked in the kernel) -/

namespace If97.Tm
set_option maxRecDepth 100000

def ph2b_t0 : Tr4 := .x (.y (.y (.y (.y .a .a) .a) (.x .a .a)) (.y (.x (.x (.y (.x (.y .a .a) .a) (.y .a .a)) .a) .a) .a)) (.y (.y (.y (.y .a .a) .a) .a) (.y .a .a))
theorem ph2b_c0 : chk 185800 1 3014200 2000000 1 4 (vPh2b sk6 q0 q7 185800 1 ph2b_t0) = true := by decide +kernel
def ph2b_t1 : Tr4 := .y (.y .a (.y .a .a)) (.y (.x (.y .a .a) .a) (.y (.y (.x .a .a) (.x .a .a)) (.y (.x (.x .a .a) .a) (.x (.y .a (.x .a .a)) (.y .a .a)))))
theorem ph2b_c1 : chk 185800 1 5842600 4000000 3 4 (vPh2b sk6 q0 q7 185800 1 ph2b_t1) = true := by decide +kernel
def ph2b_t2 : Tr4 := .y (.y .a (.y .a .a)) (.y (.y .a .a) (.y (.y (.x .a .a) (.x .a .a)) (.y (.x .a (.y .a .a)) (.x (.y .a (.y (.x .a .a) (.x .a .a))) (.x .a .a)))))
theorem ph2b_c2 : chk 185800 1 6214200 4000000 3 4 (vPh2b sk6 q0 q7 185800 1 ph2b_t2) = true := by decide +kernel
def ph2b_t3 : Tr4 := .x (.y (.y (.y .a .a) .a) .a) (.y (.y (.y (.y .a .a) .a) .a) .a)
theorem ph2b_c3 : chk 200000 1 3400000 2000000 1 4 (vPh2b sk7 q0 q8 200000 1 ph2b_t3) = true := by decide +kernel
def ph2b_t4 : Tr4 := .y .a (.y .a .a)
theorem ph2b_c4 : chk 200000 1 6600000 4000000 5 8 (vPh2b sk7 q0 q8 200000 1 ph2b_t4) = true := by decide +kernel
def ph2b_t5 : Tr4 := .y .a (.y (.x .a .a) (.y (.x .a .a) (.x .a .a)))
theorem ph2b_c5 : chk 200000 1 6600000 4000000 13 16 (vPh2b sk7 q0 q8 200000 1 ph2b_t5) = true := by decide +kernel
def ph2b_t6 : Tr4 := .x (.y .a (.x .a .a)) (.y .a (.x .a .a))
theorem ph2b_c6 : chk 200000 1 6600000 4000000 29 32 (vPh2b sk7 q0 q8 200000 1 ph2b_t6) = true := by decide +kernel

end If97.Tm
