import Verif.Lemmas.Tm.Comp.Scales
import Verif.Lemmas.Tm.Comp.Region2

/-! T(p, h) in region 2c, part 9 (generated subdivisions, checked in the kernel) -/

namespace If97.Tm
set_option maxRecDepth 100000

def ph2c_t36 : Tr4 := .x (.y (.x .a .a) (.x .a .a)) (.y (.x .a .a) (.y (.x .a .a) (.y (.x .a .a) (.x .a .a))))
theorem ph2c_c36 : chk 400000 1 20400000 8000000 125 128 (vPh2c sk10 q14 q15 400000 1 ph2c_t36) = true := by decide +kernel
def ph2c_t37 : Tr4 := .y (.x (.y (.x .a .a) (.x .a .a)) (.y (.y (.x .a .a) (.x .a .a)) (.y (.x .a .a) (.x .a .a)))) (.y (.x (.y (.x .a .a) (.x .a .a)) (.y (.x .a .a) (.x .a .a))) (.x (.y (.x .a .a) (.x .a .a)) (.y (.x .a .a) (.x .a .a))))
theorem ph2c_c37 : chk 400000 1 20400000 8000000 127 128 (vPh2c sk10 q14 q15 400000 1 ph2c_t37) = true := by decide +kernel
def ph2c_t38 : Tr4 := .y (.x (.x .a .a) (.x .a .a)) (.x (.y (.x .a .a) (.y (.x .a .a) (.y (.y (.x .a .a) (.y (.x .a .a) (.x .a .a))) (.y (.x .a .a) (.x .a .a))))) (.y (.x .a .a) (.y (.x .a .a) (.y (.x .a .a) (.y (.x .a .a) (.x .a .a))))))
theorem ph2c_c38 : chk 400000 1 21200000 8000000 15 16 (vPh2c sk10 q14 q15 400000 1 ph2c_t38) = true := by decide +kernel

end If97.Tm
