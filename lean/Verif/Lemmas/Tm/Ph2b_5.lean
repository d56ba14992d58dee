import Verif.Lemmas.Tm.Comp.Scales
import Verif.Lemmas.Tm.Comp.Region2

/-! T(p, h) in region 2b, part 5 (generated subdivisions, checked in the kernel) -/

namespace If97.Tm
set_option maxRecDepth 100000

def ph2b_t27 : Tr4 := .x (.y (.y (.y (.x .a .a) .a) (.y .a .a)) (.y (.y .a (.x .a .a)) (.x (.y .a .a) (.y (.x .a .a) (.y .a .a))))) (.y (.y (.x (.y .a .a) (.x .a .a)) (.y (.x .a .a) .a)) (.y (.y .a (.x .a .a)) (.x (.y (.x .a .a) (.x .a .a)) .a)))
theorem ph2b_c27 : chk 400000 1 5000000 2000000 1 4 (vPh2b sk10 q0 q14 400000 1 ph2b_t27) = true := by decide +kernel
def ph2b_t28 : Tr4 := .y (.y (.x .a .a) .a) (.x (.y .a .a) (.y .a .a))
theorem ph2b_c28 : chk 400000 1 9600000 4000000 5 8 (vPh2b sk10 q0 q14 400000 1 ph2b_t28) = true := by decide +kernel
def ph2b_t29 : Tr4 := .y (.y (.x .a .a) (.x .a .a)) (.y (.x .a (.y .a .a)) (.y (.x (.x .a .a) (.x .a .a)) (.y (.x (.x .a .a) (.x .a .a)) (.x (.y (.x .a .a) (.y (.x .a .a) (.x .a .a))) (.y (.x .a .a) (.x .a .a))))))
theorem ph2b_c29 : chk 400000 1 9600000 4000000 7 8 (vPh2b sk10 q0 q14 400000 1 ph2b_t29) = true := by decide +kernel
def ph2b_t30 : Tr4 := .y (.x .a (.y .a .a)) (.y (.x .a .a) (.x .a (.y .a (.x .a .a))))
theorem ph2b_c30 : chk 400000 1 10400000 4000000 5 8 (vPh2b sk10 q0 q14 400000 1 ph2b_t30) = true := by decide +kernel

end If97.Tm
