import Verif.Lemmas.Tm.Comp.Scales
import Verif.Lemmas.Tm.Comp.Region2s

/-! T(p, s) in region 2c, part 0 (generated subdivisions, checked in the kernel) -/

namespace If97.Tm
set_option maxRecDepth 100000

def ps2c_t0 : Tr4 := .y (.x .d .d) (.x .d (.y .d (.y .d (.y .d (.y .d (.x .d (.y .d (.y .d (.x .d .a)))))))))
theorem ps2c_c0 : chk 185800 1 3014200 2000000 1 2 (vPs2c sk6 q0 q7 lcU0 185800 1 ps2c_t0) = true := by decide +kernel
def ps2c_t1 : Tr4 := .y (.x .d .d) (.x (.y .d (.y .d (.y .d (.y .d (.y (.x .d .d) (.x (.y .d (.x .a .a)) (.y .d (.y .d (.x .a .a))))))))) (.y .d (.y .d (.y .d (.x (.x (.y .d (.y .d .a)) (.y .d .a)) (.y .d .a))))))
theorem ps2c_c1 : chk 200000 1 3400000 2000000 1 2 (vPs2c sk7 q0 qs0 lcU1 200000 1 ps2c_t1) = true := by decide +kernel
def ps2c_t2 : Tr4 := .x (.y (.x (.x .a .a) (.y (.x .a .a) .a)) (.x (.x .a .a) (.y (.y .a .a) (.y .a .a)))) (.y (.x (.y .a .a) .a) (.y (.x .a .a) (.x (.y .a (.x .a .a)) (.x .a .a))))
theorem ps2c_c2 : chk 200000 1 3400000 2000000 1 4 (vPs2c sk7 qs0 q9 lcU1 200000 1 ps2c_t2) = true := by decide +kernel
def ps2c_t3 : Tr4 := .y (.x .a (.x .a .a)) (.y (.x .a .a) (.x .a .a))
theorem ps2c_c3 : chk 200000 1 6600000 4000000 3 4 (vPs2c sk7 qs0 q9 lcU1 200000 1 ps2c_t3) = true := by decide +kernel
def ps2c_t4 : Tr4 := .x (.y (.y (.x .a .a) (.x .a .a)) (.y (.x .a .a) (.x .a .a))) (.y (.x .a .a) (.y (.x .a .a) (.x .a .a)))
theorem ps2c_c4 : chk 200000 1 7000000 4000000 5 8 (vPs2c sk7 qs0 q9 lcU1 200000 1 ps2c_t4) = true := by decide +kernel
def ps2c_t5 : Tr4 := .y (.x (.y (.x .a .a) (.x .a .a)) (.y (.x .a .a) (.x .a .a))) (.x (.y (.x .a .a) (.y (.x .a .a) .a)) (.y (.x .a .a) (.x .a .a)))
theorem ps2c_c5 : chk 200000 1 7000000 4000000 13 16 (vPs2c sk7 qs0 q9 lcU1 200000 1 ps2c_t5) = true := by decide +kernel

end If97.Tm
