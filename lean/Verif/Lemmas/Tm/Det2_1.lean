import Verif.Lemmas.Tm.Comp.Det

/-! The determinant of the second derivatives, region 2, part 1 (generated subdivisions, checked in the kernel) -/

namespace If97.Tm
set_option maxRecDepth 100000

def det2_t9 : Tr4 := .y .a (.x (.y .a (.x (.y .a (.x (.y .a (.x .a .a)) .a)) (.y .a (.x .a .a)))) (.y .a (.x (.y .a (.x .a .a)) (.y .a (.x .a .a)))))
theorem det2_c9 : chk 283700 1 4316300 2000000 1 2 (verify4 (leafF P12 q0 q13 (bDet2 P12) 283700 1) never never never 283700 1 det2_t9) = true := by decide +kernel

end If97.Tm
