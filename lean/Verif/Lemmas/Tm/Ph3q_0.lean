import Verif.Lemmas.Tm.Comp.Region3s

/-! T and v from (p, h) in region 3, liquid below 22.064 MPa, part 0 (generated subdivisions, checked in the kernel) -/

namespace If97.Tm
set_option maxRecDepth 100000

def ph3q_t0 : Tr4 := .x (.y (.x (.y (.y (.y (.x .c .a) .d) .d) .d) (.y (.y (.y .a .d) .d) .d)) .d) (.y (.x (.y (.y (.y .a .d) .d) .d) (.y (.y (.y .a .d) .d) .d)) .d)
theorem ph3q_c0 : chk 200000 38428 2200000 2000000 2038428 2000000 (vPh3q 200000 38428 ph3q_t0) = true := by decide +kernel
def ph3q_t1 : Tr4 := .y (.x (.y (.y (.y .a (.x .d .a)) .d) .d) (.y (.x (.y .a (.x .d .a)) (.y (.x .a .a) .a)) .d)) .d
theorem ph3q_c1 : chk 500000 38428 5300000 4000000 2038428 2000000 (vPh3q 500000 38428 ph3q_t1) = true := by decide +kernel
def ph3q_t2 : Tr4 := .x (.y (.x (.y (.x .a .a) (.y .a .a)) (.y (.x .d .d) (.x (.y .a .a) (.y .a .a)))) (.y (.x (.y .a (.x .d .a)) (.y (.x .a .a) .a)) (.x .d (.y (.x .d .a) .d)))) (.y (.x (.y .d (.x (.y .d .a) (.y .d .a))) .d) (.x (.y (.x (.y (.x .a .a) (.x .a .a)) (.y .a .a)) (.x (.y .a .a) (.y (.x .a .a) .a))) (.x (.y (.x .a .a) (.y .a .a)) (.y .a .a))))
theorem ph3q_c2 : chk 500000 38428 6300000 4000000 4038428 4000000 (vPh3q 500000 38428 ph3q_t2) = true := by decide +kernel
def ph3q_t3 : Tr4 := .x .d (.y (.x (.y (.x .d (.y .a (.x .d (.y .a .d)))) .d) (.y (.x (.y .a .a) (.y .a .a)) (.x (.y (.x .d .a) .d) (.y .a (.x (.y .a .d) .a))))) .d)
theorem ph3q_c3 : chk 500000 38428 6300000 4000000 4115284 4000000 (vPh3q 500000 38428 ph3q_t3) = true := by decide +kernel
def ph3q_t4 : Tr4 := .x (.y (.x (.x (.y .d (.x (.x .a .a) .d)) .d) .d) (.x (.x (.y (.x (.x (.y .a (.y .a .a)) (.y .a .a)) .a) (.x (.y (.x (.y .a .d) (.y .a .a)) (.x .d (.y (.x .d .a) .d))) (.y .a (.x (.y .a (.x .d .a)) .a)))) (.y (.x (.y .d (.x .a .a)) .d) (.x (.y .a .a) (.y .a .a)))) (.x (.y .d (.x .a .d)) .d))) (.x .d .d)
theorem ph3q_c4 : chk 800000 38428 4200000 2000000 2038428 2000000 (vPh3q 800000 38428 ph3q_t4) = true := by decide +kernel

end If97.Tm
