import Verif.Lemmas.Tm.Comp.Scales
import Verif.Lemmas.Tm.Comp.Region2

/-! T(p, h) in region 2c, part 0 (generated subdivisions, checked in the kernel) -/

namespace If97.Tm
set_option maxRecDepth 100000

def ph2c_t0 : Tr4 := .y (.x (.y .d .d) (.y .d .d)) (.x (.y .d (.y .d .d)) (.y .d (.y .d (.y .d (.y .d (.y .d (.y .d (.y .d (.y .d (.y (.x .d .d) (.x .d .a)))))))))))
theorem ph2c_c0 : chk 185800 1 3014200 2000000 1 2 (vPh2c sk6 q0 q7 185800 1 ph2c_t0) = true := by decide +kernel
def ph2c_t1 : Tr4 := .y (.x (.y .d .d) (.y .d .d)) (.x (.y .d (.y .d (.y .d (.y .d (.x (.y .d (.x (.y .d (.x .a .a)) .a)) (.y .d (.x .a .a))))))) (.y .d (.y .d (.y .d (.y .d (.x (.y .d (.x .a .a)) (.y .d (.x .a .a))))))))
theorem ph2c_c1 : chk 200000 1 3400000 2000000 1 2 (vPh2c sk7 q0 q8 200000 1 ph2c_t1) = true := by decide +kernel
def ph2c_t2 : Tr4 := .x (.x (.x (.x .a .a) .a) (.y (.x .a .a) (.x .a .a))) (.y (.x (.x .a .a) (.y (.x .a .a) (.x .a .a))) (.x (.y (.x .a .a) (.x .a .a)) (.y (.x .a .a) (.x .a .a))))
theorem ph2c_c2 : chk 200000 1 3400000 2000000 1 4 (vPh2c sk7 q8 q9 200000 1 ph2c_t2) = true := by decide +kernel
def ph2c_t3 : Tr4 := .x (.x (.y .a .a) (.y .a .a)) (.y (.x .a .a) (.y (.x .a .a) (.y (.x .a .a) (.y (.x .a .a) (.x .a .a)))))
theorem ph2c_c3 : chk 200000 1 6600000 4000000 3 4 (vPh2c sk7 q8 q9 200000 1 ph2c_t3) = true := by decide +kernel
def ph2c_t4 : Tr4 := .y (.x (.x .a .a) (.y (.x .a .a) (.x .a .a))) (.x (.x .a .a) (.y (.x .a .a) (.y (.x .a .a) (.x .a .a))))
theorem ph2c_c4 : chk 200000 1 7000000 4000000 5 8 (vPh2c sk7 q8 q9 200000 1 ph2c_t4) = true := by decide +kernel

end If97.Tm
