import Verif.Lemmas.Tm.Comp.Region3s

/-! T and v from (p, s) in region 3, liquid below 22.064 MPa, part 0 (generated subdivisions, checked in the kernel) -/

namespace If97.Tm
set_option maxRecDepth 100000

def ps3q_t0 : Tr4 := .x (.y (.x (.y (.y (.y (.y .c (.y .a .d)) .d) .d) .d) (.y (.y (.y .a .d) .d) .d)) .d) (.y (.x (.y (.y (.y .a .d) .d) .d) (.y (.y (.y .a .d) .d) .d)) .d)
theorem ps3q_c0 : chk 200000 38428 2200000 2000000 2038428 2000000 (vPs3q lcR3 200000 38428 ps3q_t0) = true := by decide +kernel
def ps3q_t1 : Tr4 := .y (.x (.y (.y (.y .a (.x .d (.y .a (.x .d .a)))) .d) .d) (.y (.y (.x .a .a) (.x (.y (.x .d .a) .d) .a)) .d)) .d
theorem ps3q_c1 : chk 500000 38428 5300000 4000000 2038428 2000000 (vPs3q lcR4 500000 38428 ps3q_t1) = true := by decide +kernel
def ps3q_t2 : Tr4 := .x (.y (.x (.y (.x (.y .d .a) (.y .d (.x .a .a))) (.y .a .a)) (.y (.x .d .d) (.y (.x (.y .a .a) .a) (.x .a .a)))) (.y (.x (.y .a (.x .d .a)) (.y (.x .a .a) .a)) (.x .d (.y (.x .d .a) .d)))) (.x (.y (.x (.y .d .a) .a) (.y (.x .a .a) (.x .a .a))) (.y .d (.x (.y .a (.x .a .a)) (.y (.y .d .a) (.x (.y .a .a) .a)))))
theorem ps3q_c2 : chk 500000 38428 6300000 4000000 4038428 4000000 (vPs3q lcR4 500000 38428 ps3q_t2) = true := by decide +kernel
def ps3q_t3 : Tr4 := .x .d (.y (.x (.y (.x .d .a) .d) (.y (.x (.y .a .a) (.y (.x .a .a) (.x .a .a))) (.x (.y (.y .a .d) .d) (.y .a (.x (.y .a .d) .a))))) .d)
theorem ps3q_c3 : chk 500000 38428 6300000 4000000 4115284 4000000 (vPs3q lcR4 500000 38428 ps3q_t3) = true := by decide +kernel
def ps3q_t4 : Tr4 := .x (.x (.x (.y .d (.x (.y .d (.x .a .a)) .a)) (.x .d .d)) .d) .d
theorem ps3q_c4 : chk 800000 38428 7600000 4000000 4038428 4000000 (vPs3q lcR5 800000 38428 ps3q_t4) = true := by decide +kernel
def ps3q_t5 : Tr4 := .x (.x (.y (.x (.y (.x (.y .a (.x .a .a)) (.x .a .a)) (.x (.y (.x .a .a) .a) (.y .a .a))) (.x (.y .a .a) .a)) (.x (.y (.x (.y (.x (.y .a .d) .a) .d) (.y .a (.x (.y .a (.x .d .a)) .a))) (.x .d (.y (.x .d (.y .a .d)) .d))) (.y (.x (.y .a .a) .a) (.x (.y .a (.x .d (.y .a .d))) (.y .a (.x .a .a)))))) (.y (.x (.x .a .a) .d) (.x (.y .a (.x .a .a)) (.y .a .a)))) (.x (.x (.y .d .a) .d) .d)
theorem ps3q_c5 : chk 800000 38428 7600000 4000000 4115284 4000000 (vPs3q lcR5 800000 38428 ps3q_t5) = true := by decide +kernel
def ps3q_t6 : Tr4 := .x .d .d
theorem ps3q_c6 : chk 800000 38428 9200000 4000000 2038428 2000000 (vPs3q lcR5 800000 38428 ps3q_t6) = true := by decide +kernel

end If97.Tm
