import Verif.Lemmas.Tm.Comp.Det

/-! The determinant of the second derivatives, region 2, part 2 (generated subdivisions, checked in the kernel) -/

namespace If97.Tm
set_option maxRecDepth 100000

def det2_t10 : Tr4 := .y .a (.x (.y .a (.x (.y .a (.x .a .a)) (.y .a (.x .a .a)))) (.y .a (.x (.y .a (.x .a .a)) (.y .a (.x .a .a)))))
theorem det2_c10 : chk 400000 1 5000000 2000000 1 2 (verify4 (leafF P19 q0 q15 (bDet2 P19) 400000 1) never never never 400000 1 det2_t10) = true := by decide +kernel
def det2_t11 : Tr4 := .y (.x .a .a) (.x (.y (.x .a .a) (.x (.y .a (.x .a .a)) (.y .a (.x .a .a)))) (.y (.x .a .a) (.x (.y .a (.x .a .a)) (.y .a (.x .a .a)))))
theorem det2_c11 : chk 462278 1 5862278 2000000 1 2 (verify4 (leafF P19 q0 q17 (bDet2 P19) 462278 1) never never never 462278 1 det2_t11) = true := by decide +kernel

end If97.Tm
