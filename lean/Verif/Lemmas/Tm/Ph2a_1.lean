import Verif.Lemmas.Tm.Comp.Scales
import Verif.Lemmas.Tm.Comp.Region2

/-! T(p, h) in region 2a, part 1 (generated subdivisions, checked in the kernel) -/

namespace If97.Tm
set_option maxRecDepth 100000

def ph2a_t8 : Tr4 := .y (.x .a .a) (.y (.x .a .a) (.y (.x .a .a) (.y (.x .a .a) (.x .a .a))))
theorem ph2a_c8 : chk 150000 1 1150000 4000000 125 128 (vPh2a sk1 q0 q2 150000 1 ph2a_t8) = true := by decide +kernel
def ph2a_t9 : Tr4 := .y (.y (.y (.x .a .a) (.x .a .a)) (.y (.x .a .a) (.y (.x .a .a) (.x .a .a)))) (.y (.y (.y (.x .a .a) (.y (.x .a .a) (.x .a .a))) (.y (.x .a .a) (.x .a .a))) (.y (.x .a .a) (.x .a .a)))
theorem ph2a_c9 : chk 150000 1 1150000 4000000 505 512 (vPh2a sk1 q0 q2 150000 1 ph2a_t9) = true := by decide +kernel
def ph2a_t10 : Tr4 := .y (.y (.x .a .a) (.x .a .a)) (.y (.x .a .a) (.x .a .a))
theorem ph2a_c10 : chk 150000 1 1150000 4000000 507 512 (vPh2a sk1 q0 q2 150000 1 ph2a_t10) = true := by decide +kernel
def ph2a_t11 : Tr4 := .y (.y (.x .a .a) (.x .a .a)) (.y (.x .a .a) (.x .a .a))
theorem ph2a_c11 : chk 150000 1 1150000 4000000 255 256 (vPh2a sk1 q0 q2 150000 1 ph2a_t11) = true := by decide +kernel
def ph2a_t12 : Tr4 := .y (.y .a .a) (.y .a (.y (.y .a (.x .a .a)) (.y (.x .a .a) (.y (.x .a .a) (.y (.y (.y (.x .a .a) (.y (.x .a .a) (.x .a .a))) (.y (.x .a .a) (.x .a .a))) (.y (.x .a .a) (.x .a .a)))))))
theorem ph2a_c12 : chk 150000 1 1450000 4000000 3 4 (vPh2a sk1 q0 q2 150000 1 ph2a_t12) = true := by decide +kernel
def ph2a_t13 : Tr4 := .x (.y (.y (.y .a .a) (.y .a .a)) (.y .a .a)) (.y (.y (.y .a .a) (.y .a .a)) (.y .a .a))
theorem ph2a_c13 : chk 200000 1 1000000 2000000 1 4 (vPh2a sk2 q0 q3 200000 1 ph2a_t13) = true := by decide +kernel

end If97.Tm
