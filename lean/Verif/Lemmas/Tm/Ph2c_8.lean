import Verif.Lemmas.Tm.Comp.Scales
import Verif.Lemmas.Tm.Comp.Region2

/-! T(p, h) in region 2c, part 8 (generated subdivisions, checked in the kernel) -/

namespace If97.Tm
set_option maxRecDepth 100000

def ph2c_t31 : Tr4 := .y (.x (.x .a .a) (.x .a .a)) (.y (.x (.x .a .a) (.x .a .a)) (.y (.x (.x .a .a) (.x .a .a)) (.y (.x (.x .a .a) (.x .a .a)) (.x (.y (.x .a .a) (.x .a .a)) (.y (.x .a .a) (.y (.x .a .a) (.y (.x .a .a) (.x .a .a))))))))
theorem ph2c_c31 : chk 400000 1 19600000 8000000 15 16 (vPh2c sk10 q14 q15 400000 1 ph2c_t31) = true := by decide +kernel
def ph2c_t32 : Tr4 := .y (.x (.x .a .a) (.x (.y .a .a) .a)) (.x (.y (.x .a .a) (.x .a .a)) (.y (.y (.x .a .a) (.x .a .a)) (.x .a .a)))
theorem ph2c_c32 : chk 400000 1 10400000 4000000 5 8 (vPh2c sk10 q14 q15 400000 1 ph2c_t32) = true := by decide +kernel
def ph2c_t33 : Tr4 := .x (.y (.y (.x .a .a) (.x (.x .a .a) (.y .a (.x .a .a)))) (.x (.x .a .a) (.y (.y (.x .a .a) (.x .a .a)) (.x .a .a)))) (.y (.x (.y .a .a) .a) (.x (.x .a .a) (.x .a .a)))
theorem ph2c_c33 : chk 400000 1 10400000 4000000 13 16 (vPh2c sk10 q14 q15 400000 1 ph2c_t33) = true := by decide +kernel
def ph2c_t34 : Tr4 := .x (.x .a .a) (.y (.x .a .a) (.y (.x .a .a) (.x .a .a)))
theorem ph2c_c34 : chk 400000 1 20400000 8000000 29 32 (vPh2c sk10 q14 q15 400000 1 ph2c_t34) = true := by decide +kernel
def ph2c_t35 : Tr4 := .x (.x .a .a) (.y (.x .a .a) (.x .a .a))
theorem ph2c_c35 : chk 400000 1 20400000 8000000 61 64 (vPh2c sk10 q14 q15 400000 1 ph2c_t35) = true := by decide +kernel

end If97.Tm
