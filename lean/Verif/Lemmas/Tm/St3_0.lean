import Verif.Lemmas.Tm.Comp.Region3st

/-! Stability of region 3 (generated subdivisions, checked in the kernel). -/

namespace If97.Tm
set_option maxRecDepth 100000

def st3h_t0 : Tr4 := .y .a .a
theorem st3h_c0 : chk 300000 250303 300000 2000000 1749685 2000000 (vSt3 300000 250303 st3h_t0) = true := by decide +kernel
def st3h_t1 : Tr4 := .a
theorem st3h_c1 : chk 200000 250303 800000 2000000 1749685 2000000 (vSt3 200000 250303 st3h_t1) = true := by decide +kernel
def st3h_t2 : Tr4 := .y .a (.y .a (.x .a (.y .a (.y .a (.x .a .a)))))
theorem st3h_c2 : chk 300000 250303 1300000 2000000 1749685 2000000 (vSt3 300000 250303 st3h_t2) = true := by decide +kernel
def st3h_t3 : Tr4 := .y .a (.y .a (.y .a (.y (.x .a .a) (.y (.x .a .a) (.x (.y .a (.x (.x .a .a) (.y .a (.y .a (.y .a (.x .a (.y .a (.y .a (.x .a (.y .a (.y .a (.x .a .a)))))))))))) (.x (.y .a (.y .a (.y .a (.x (.y .a (.y .a (.y .a (.x (.y .a (.y .a (.x .a .a))) .a)))) (.y .a (.x .a .a)))))) (.y .a (.x .a .a))))))))
theorem st3h_c3 : chk 400000 250303 2000000 2000000 1749685 2000000 (vSt3 400000 250303 st3h_t3) = true := by decide +kernel
def st3h_t4 : Tr4 := .y (.x .a .a) (.x (.y .a (.y .a (.x (.y .a (.y .a (.x .a .a))) .a))) (.y .a (.x .a .a)))
theorem st3h_c4 : chk 500000 250303 2900000 2000000 1749685 2000000 (vSt3 500000 250303 st3h_t4) = true := by decide +kernel
def st3h_t5 : Tr4 := .x (.y .a (.x .a .a)) (.y (.y .b .a) .a)
theorem st3h_c5 : chk 800000 250303 4200000 2000000 1749685 2000000 (vSt3 800000 250303 st3h_t5) = true := by decide +kernel
def st3m_t0 : Tr4 := .x (.x .a .a) (.x .a (.x .a .a))
theorem st3m_c0 : chk 745500 1710 745500 2000000 2001690 2000000 (vSt3 745500 1710 st3m_t0) = true := by decide +kernel
def st3n_t0 : Tr4 := .x (.x (.x (.x .a .a) .a) .a) (.x .a .a)
theorem st3n_c0 : chk 1258000 1710 3742000 2000000 2001690 2000000 (vSt3 1258000 1710 st3n_t0) = true := by decide +kernel
def st3q_t0 : Tr4 := .y (.y (.y (.x (.y (.y (.y (.x .d .d) (.y .d .d)) (.y .d .d)) .d) (.y (.x .d .d) .d)) (.x .d .d)) .d) .d
theorem st3q_c0 : chk 200000 36732 2200000 2000000 2040124 2000000 (vSt3q 200000 36732 st3q_t0) = true := by decide +kernel
def st3q_t1 : Tr4 := .x (.y (.x (.y (.x (.y (.y (.x .d .a) .d) .d) (.y (.x (.y .a .d) .a) .d)) .d) (.y (.x (.y .a .d) .a) .d)) .d) (.x (.y (.x .a .a) .d) (.x (.y .a .a) .a))
theorem st3q_c1 : chk 500000 36732 2900000 2000000 2040124 2000000 (vSt3q 500000 36732 st3q_t1) = true := by decide +kernel
def st3q_t2 : Tr4 := .x (.x .a .a) .a
theorem st3q_c2 : chk 800000 36732 4200000 2000000 2040124 2000000 (vSt3q 800000 36732 st3q_t2) = true := by decide +kernel
def st3v_t0 : Tr4 := .x .a .a
theorem st3v_c0 : chk 300000 36732 300000 2000000 2040124 2000000 (vSt3v 300000 36732 st3v_t0) = true := by decide +kernel
def st3v_t1 : Tr4 := .x .a (.y .a (.x .a (.y .a .d)))
theorem st3v_c1 : chk 200000 36732 800000 2000000 2040124 2000000 (vSt3v 200000 36732 st3v_t1) = true := by decide +kernel
def st3v_t2 : Tr4 := .x (.y (.x .a (.y .a .d)) .d) (.y (.y (.x (.y (.x .a .a) .d) (.y (.x (.y .a .d) (.y (.y .a .d) .d)) .d)) .d) .d)
theorem st3v_c2 : chk 300000 36732 1300000 2000000 2040124 2000000 (vSt3v 300000 36732 st3v_t2) = true := by decide +kernel
def st3v_t3 : Tr4 := .y (.y (.y (.x (.y (.x .d .d) .d) (.y (.y (.y (.x (.y .d .d) .d) (.x (.y .d .d) .d)) (.y (.x (.y .d .d) .d) .d)) .d)) (.y (.x .d .d) .d)) .d) .d
theorem st3v_c3 : chk 200000 36732 1800000 2000000 2040124 2000000 (vSt3v 200000 36732 st3v_t3) = true := by decide +kernel

end If97.Tm
