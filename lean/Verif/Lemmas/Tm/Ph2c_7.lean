import Verif.Lemmas.Tm.Comp.Scales
import Verif.Lemmas.Tm.Comp.Region2

/-! T(p, h) in region 2c, part 7 (generated subdivisions, checked in the kernel) -/

namespace If97.Tm
set_option maxRecDepth 100000

def ph2c_t27 : Tr4 := .y (.y (.x .a (.y .a .a)) (.x .a .a)) (.x (.x (.y .a .a) (.y (.y .a (.x .a .a)) (.x .a (.y .a .a)))) (.y (.y (.x .a .a) (.x (.y .a .a) .a)) (.x (.y (.x .a .a) (.y .a .a)) (.x (.y .a .a) .a))))
theorem ph2c_c27 : chk 400000 1 10400000 4000000 1 4 (vPh2c sk10 q14 q15 400000 1 ph2c_t27) = true := by decide +kernel
def ph2c_t28 : Tr4 := .x (.y (.y (.x .a .a) (.x .a .a)) (.x (.y .a (.x .a .a)) .a)) (.y (.x .a .a) (.x .a .a))
theorem ph2c_c28 : chk 400000 1 9600000 4000000 5 8 (vPh2c sk10 q14 q15 400000 1 ph2c_t28) = true := by decide +kernel
def ph2c_t29 : Tr4 := .x (.x (.y (.x .a .a) (.x .a .a)) (.y (.x .a .a) (.x .a .a))) (.x (.y (.x .a .a) (.x .a .a)) (.y (.x .a .a) (.x .a .a)))
theorem ph2c_c29 : chk 400000 1 9600000 4000000 13 16 (vPh2c sk10 q14 q15 400000 1 ph2c_t29) = true := by decide +kernel
def ph2c_t30 : Tr4 := .y (.x (.y (.x .a .a) (.y (.x .a .a) (.x .a .a))) (.x .a .a)) (.y (.x (.y (.x .a .a) (.x .a .a)) (.x .a .a)) (.x (.y (.x .a .a) (.x .a .a)) (.x .a .a)))
theorem ph2c_c30 : chk 400000 1 18800000 8000000 15 16 (vPh2c sk10 q14 q15 400000 1 ph2c_t30) = true := by decide +kernel

end If97.Tm
