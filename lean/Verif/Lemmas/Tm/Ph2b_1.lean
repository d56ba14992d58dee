import Verif.Lemmas.Tm.Comp.Scales
import Verif.Lemmas.Tm.Comp.Region2

/-! T(p, h) in region 2b, part 1 (generated subdivisions, checked in the kernel) -/

namespace If97.Tm
set_option maxRecDepth 100000

def ph2b_t7 : Tr4 := .y (.x (.y (.x .a .a) (.x .a .a)) (.x .a .a)) (.x (.y (.x .a .a) (.x .a .a)) (.y (.x .a .a) (.y (.x .a .a) (.y (.x .a .a) (.x .a .a)))))
theorem ph2b_c7 : chk 200000 1 6600000 4000000 61 64 (vPh2b sk7 q0 q8 200000 1 ph2b_t7) = true := by decide +kernel
def ph2b_t8 : Tr4 := .y (.y (.x (.x .a .a) (.y (.y (.x .a .a) (.x .a .a)) (.x .a .a))) (.x (.x .a .a) (.x .a .a))) (.x (.y (.x .a .a) (.x (.x .a .a) (.y .a (.y (.x .a .a) (.x .a .a))))) (.y (.x .a .a) (.x (.y .a (.x .a .a)) .a)))
theorem ph2b_c8 : chk 200000 1 6600000 4000000 63 64 (vPh2b sk7 q0 q8 200000 1 ph2b_t8) = true := by decide +kernel
def ph2b_t9 : Tr4 := .y .a .a
theorem ph2b_c9 : chk 200000 1 7000000 4000000 5 8 (vPh2b sk7 q0 q8 200000 1 ph2b_t9) = true := by decide +kernel
def ph2b_t10 : Tr4 := .y .a (.y (.x .a .a) (.y (.x .a .a) (.y (.x .a .a) (.x .a .a))))
theorem ph2b_c10 : chk 200000 1 7000000 4000000 13 16 (vPh2b sk7 q0 q8 200000 1 ph2b_t10) = true := by decide +kernel
def ph2b_t11 : Tr4 := .y (.y (.y (.x .a .a) (.x .a .a)) (.x .a .a)) (.y (.x (.y (.x .a .a) (.y (.x .a .a) (.x .a .a))) (.y .a (.y (.x .a .a) (.x .a .a)))) (.x (.x .a .a) (.y (.y (.x .a .a) (.x .a .a)) (.x .a .a))))
theorem ph2b_c11 : chk 200000 1 7000000 4000000 15 16 (vPh2b sk7 q0 q8 200000 1 ph2b_t11) = true := by decide +kernel

end If97.Tm
