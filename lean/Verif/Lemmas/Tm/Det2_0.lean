import Verif.Lemmas.Tm.Comp.Det

/-! The determinant of the second derivatives, region 2, part 0 (generated subdivisions, checked in the kernel) -/

namespace If97.Tm
set_option maxRecDepth 100000

def det2_t0 : Tr4 := .y (.x (.y .a .a) (.y .a .a)) .a
theorem det2_c0 : chk 92800 1 407200 2000000 1 2 (verify4 (leafF P12 q0 q1 (bDet2 P12) 92800 1) never never never 92800 1 det2_t0) = true := by decide +kernel
def det2_t1 : Tr4 := .y (.x (.y .a .a) (.y .a .a)) (.x .a .a)
theorem det2_c1 : chk 150000 1 650000 2000000 1 2 (verify4 (leafF P12 q0 q2 (bDet2 P12) 150000 1) never never never 150000 1 det2_t1) = true := by decide +kernel
def det2_t2 : Tr4 := .y (.x .a .a) (.x .a .a)
theorem det2_c2 : chk 200000 1 1000000 2000000 1 2 (verify4 (leafF P12 q0 q3 (bDet2 P12) 200000 1) never never never 200000 1 det2_t2) = true := by decide +kernel
def det2_t3 : Tr4 := .y .a (.x .a .a)
theorem det2_c3 : chk 250000 1 1450000 2000000 1 2 (verify4 (leafF P12 q0 q4 (bDet2 P12) 250000 1) never never never 250000 1 det2_t3) = true := by decide +kernel
def det2_t4 : Tr4 := .y .a (.x .a .a)
theorem det2_c4 : chk 250000 1 1950000 2000000 1 2 (verify4 (leafF P12 q0 q5 (bDet2 P12) 250000 1) never never never 250000 1 det2_t4) = true := by decide +kernel
def det2_t5 : Tr4 := .y .a (.x (.y .a .a) (.y .a (.x .a .a)))
theorem det2_c5 : chk 314220 1 2514220 2000000 1 2 (verify4 (leafF P12 q0 q6 (bDet2 P12) 314220 1) never never never 314220 1 det2_t5) = true := by decide +kernel
def det2_t6 : Tr4 := .y .a (.x (.y .a .a) (.y .a (.x .a .a)))
theorem det2_c6 : chk 185800 1 3014200 2000000 1 2 (verify4 (leafF P12 q0 q7 (bDet2 P12) 185800 1) never never never 185800 1 det2_t6) = true := by decide +kernel
def det2_t7 : Tr4 := .y .a (.x (.y .a (.x .a (.y .a .a))) (.y .a (.x (.y .a .a) (.y .a .a))))
theorem det2_c7 : chk 200000 1 3400000 2000000 1 2 (verify4 (leafF P12 q0 q9 (bDet2 P12) 200000 1) never never never 200000 1 det2_t7) = true := by decide +kernel
def det2_t8 : Tr4 := .y .a (.x (.y .a (.x (.y .a .a) (.y .a .a))) (.y .a (.x (.y .a (.x .a .a)) (.y .a (.x (.y .a .a) (.y .a .a))))))
theorem det2_c8 : chk 216300 1 3816300 2000000 1 2 (verify4 (leafF P12 q0 q11 (bDet2 P12) 216300 1) never never never 216300 1 det2_t8) = true := by decide +kernel

end If97.Tm
