import Verif.Lemmas.Tm.Comp.Region3r

/-! Recognition of region 3 (generated subdivisions, checked in the kernel). -/

namespace If97.Tm
set_option maxRecDepth 100000

def e13_1_t : Tr4 := .x (.x (.x .a (.x .a .a)) (.x .a .a)) (.x (.x .a .a) (.x .a .a))
theorem e13_1_c : chk 15000 0 75000 2000 27720 12463 (vE13 bd1 15000 0 e13_1_t) = true := by decide +kernel
def e32_1_t : Tr4 := .x (.x (.x (.x .a .a) (.x .a (.x .a .a))) (.x (.x (.x .a .a) .a) (.x .a .a))) (.x (.x .a (.x .a .a)) (.x (.x .a .a) (.x .a .a)))
theorem e32_1_c : chk 90774 0 2676512 2000000 1 1 (vE32 sk10 lcB1 bd1 90774 0 e32_1_t) = true := by decide +kernel
def e13_3_t : Tr4 := .x (.x .a .a) (.x .a .a)
theorem e13_3_c : chk 30000 0 170000 2000 27720 12463 (vE13 bd3 30000 0 e13_3_t) = true := by decide +kernel
def e32_3_t : Tr4 := .x (.x (.x (.x (.x .a .a) .a) (.x .a .a)) (.x (.x .a .a) (.x .a .a))) (.x (.x (.x .a .a) .a) (.x .a .a))
theorem e32_3_c : chk 103786 0 3093068 2000000 1 1 (vE32 sk11 lcB3 bd3 103786 0 e32_3_t) = true := by decide +kernel
def e13_5_t : Tr4 := .x (.x .a .a) (.x .a .a)
theorem e13_5_c : chk 3564 0 40564 2000 27720 12463 (vE13 bd5 3564 0 e13_5_t) = true := by decide +kernel
def e32_5_t : Tr4 := .x (.x (.x .a (.x .a (.x .a .a))) (.x (.x (.x .a .a) .a) .a)) (.x (.x .a .a) (.x (.x .a .a) .a))
theorem e32_5_c : chk 41395 0 2410225 2000000 1 1 (vE32 sk9 lcB5 bd5 41395 0 e32_5_t) = true := by decide +kernel
def subq_0_0_t : Tr4 := .y (.y .a .a) .a
theorem subq_0_0_c : chk 200000 38350 2200000 2000000 2038350 2000000 (vSubq lcR3 bd4 200000 38350 subq_0_0_t) = true := by decide +kernel
def subq_0_1_t : Tr4 := .x (.y (.y .a (.x .a .a)) .a) (.y (.y (.x .a .a) (.x (.x (.y .a .a) (.y .a (.x .a (.y .a .a)))) (.y .a (.x (.y .a .a) .a)))) (.y (.x .a (.x (.y (.x .a (.y (.x (.y .a .a) .a) (.x .a (.y (.x .a (.y (.x .a .a) .a)) .a)))) .a) (.y (.x (.y .a (.x (.y (.x (.y .a (.x .a .d)) .a) (.x .a (.y (.x (.y .d .a) .d) .a))) (.y .a (.x (.y .d (.x (.y .d .a) .d)) .b)))) .b) (.x (.y (.x .a (.y (.x (.y (.x .a (.y .d .a)) .a) (.y .d (.x .a (.y .d .a)))) .a)) .a) (.y (.x (.y .d (.x (.y (.x (.y .d .a) .d) .a) .d)) .b) (.x (.y (.x .a (.y (.x .a (.y .d .a)) .a)) .a) (.y (.x (.y .d (.x .a .d)) .d) (.x .a (.y .d .a))))))))) .a))
theorem subq_0_1_c : chk 500000 38350 2900000 2000000 2038350 2000000 (vSubq lcR4 bd4 500000 38350 subq_0_1_t) = true := by decide +kernel
def subq_0_2_t : Tr4 := .x (.x (.y (.x .a .a) (.y (.x (.x (.y .a (.x .d .b)) .a) .a) (.y (.x (.x (.x (.x (.y (.y (.x (.y (.x .a .d) .a) (.y .d (.x .a .d))) .a) .a) (.y (.y .d (.x (.y .d .a) .d)) .a)) (.x (.y .d (.y .d (.x .a (.y .d .a)))) (.y .b .d))) (.x .b .b)) (.x .a .a)) (.y (.x (.x (.x .a (.x .a (.x .a (.y .d .a)))) (.x (.x .d (.y .b (.x .d .b))) .b)) (.x .b .a)) (.y (.x (.x .a (.x .d (.x (.x (.y .b .d) .b) .b))) .b) (.x (.y (.x .a (.x .a (.x (.x .d .b) .b))) (.x .a (.x .a (.x .d .b)))) (.y .b (.y .b (.y .b (.x .b .a)))))))))) (.x .a .a)) (.x .a .a)
theorem subq_0_2_c : chk 800000 38350 4200000 2000000 2038350 2000000 (vSubq lcR5 bd4 800000 38350 subq_0_2_t) = true := by decide +kernel
def subq_1_0_t : Tr4 := .y (.y (.y (.y (.y (.x .a (.y (.x .a .d) .a)) (.x .a .a)) (.x .a .a)) (.y .a .a)) .a) .a
theorem subq_1_0_c : chk 200000 38350 2200000 2000000 2038350 2000000 (vSubq lcR3 bd5 200000 38350 subq_1_0_t) = true := by decide +kernel
def subq_1_1_t : Tr4 := .x (.y (.y (.x (.y (.y (.y .d (.x (.y (.x .a .d) .a) .d)) (.x .a (.y (.x .a (.y .d (.x .a .d))) .a))) .a) (.y (.y .d (.x (.y .d (.x (.y (.x (.y .d .a) .d) (.x .a (.y .d .a))) .d)) .b)) (.x (.y (.x .a (.y (.x (.y (.y .d .a) .a) (.y .d (.x .a .d))) .a)) .a) (.y (.x (.y .d (.x (.y (.x .a .d) .a) .d)) .d) (.x .a (.y (.x (.y .d .a) .d) .a)))))) (.x .a .a)) .a) (.y (.x (.x (.y (.y .b (.x .d .b)) (.x (.y (.x .a (.y (.y .d .a) .a)) .a) (.y (.y .d .a) .a))) (.y .b (.y (.x (.y (.x .b .b) (.x .d (.y (.x .d .b) .d))) (.x (.y .b (.y .b (.x (.y .b .d) .b))) .b)) (.y (.x .a (.x .d (.y (.x (.y .b .d) .b) (.x .d (.y (.x .d .b) .d))))) .a)))) (.x (.y .b (.x (.y .b (.y (.x (.y .b (.x (.y .b (.x .d .b)) .b)) .b) (.x (.y (.x .d (.y (.x .d .b) .d)) .a) (.y (.x (.y .b (.x (.y .b .d) .b)) .b) (.x .d (.y (.x (.y .b .d) .b) .d)))))) (.y .b (.y .b (.x (.y .b (.x (.y .b (.x (.y .b (.x .d .b)) .b)) .b)) .b))))) .b)) (.y (.x .a (.x (.y (.x .a (.y (.x (.y (.x (.y (.x .d (.y (.x .d .b) .d)) .a) (.y (.x (.y .b (.x .d .b)) .b) (.x .d (.y .b .d)))) .a) (.y .b (.x (.y (.x .d (.y .b (.x .d (.y .b .d)))) .d) (.y .b (.x (.y (.x .d .b) .d) (.y .b (.x .d .b))))))) .d)) .a) (.y (.x (.y .b (.x (.y (.x (.y (.x (.y (.x (.y .b .d) .b) .d) .b) (.x .a (.y (.x .d (.y .b .d)) .d))) (.y .b (.x (.y .b (.x .d .b)) .b))) (.x .a (.y (.x .d (.y (.x (.y .b .d) .b) .d)) .a))) (.y .b (.x (.y (.x (.y .b (.x (.y .b .d) .b)) .b) (.x (.y (.x .d (.y .b .a)) .a) (.y .b (.x .a (.y .b .a))))) .b)))) .b) (.x (.y (.x .a (.y (.x .a (.y (.x .a (.y .b .a)) .a)) .a)) .a) (.y (.x (.y (.x (.y .b (.x .a .b)) .b) .a) .b) .a))))) .a))
theorem subq_1_1_c : chk 500000 38350 2900000 2000000 2038350 2000000 (vSubq lcR4 bd5 500000 38350 subq_1_1_t) = true := by decide +kernel
def subq_1_2_t : Tr4 := .x (.x (.y (.x (.y .a .b) .a) (.y (.x (.x (.y .b (.x (.y .b (.x (.y .b .a) .b)) .b)) .b) .b) (.y (.x (.x (.x .a (.y (.x (.y .b .a) .b) .a)) (.x .b .b)) .b) (.y (.x (.x .a (.x .a .b)) .b) (.y (.x .a .b) (.x .a (.y .b (.y .b .b)))))))) (.x (.y .a (.y .a (.x (.y .a (.y .a (.y .a (.y .a .b)))) .a))) .a)) (.x .a .a)
theorem subq_1_2_c : chk 800000 38350 4200000 2000000 2038350 2000000 (vSubq lcR5 bd5 800000 38350 subq_1_2_t) = true := by decide +kernel
def subv_0_0_t : Tr4 := .x .a (.x .a .a)
theorem subv_0_0_c : chk 300000 38350 300000 2000000 2038350 2000000 (vSubv lcR1 bd4 300000 38350 subv_0_0_t) = true := by decide +kernel
def subv_0_1_t : Tr4 := .x (.x (.y (.x .a .a) (.x .a (.y .a (.x .a .a)))) (.y (.x (.x (.y .a (.x .a (.y .a (.x .a (.y .a .a))))) (.y (.x .a .a) (.y (.x (.x .a (.y .a (.x .a (.y .a (.x (.y .a (.x .a .c)) .c))))) (.y (.x (.x .a (.y .a (.x (.y .a .c) .c))) .a) (.x (.x (.y (.x (.y .a .c) .c) .c) .b) .b))) (.x (.x (.y (.x .a (.y .a (.x .a (.y .a .c)))) (.x (.y (.x .a (.y .a (.x .a .c))) (.x (.y .a .c) .c)) (.y (.x (.y (.x .a .c) .c) .c) .b))) (.y (.x (.y (.x .a (.y (.x .a .c) .c)) .c) .c) .b)) .b)))) (.y .a .b)) (.y (.x (.x (.x (.x .a (.y .a (.x .a (.y .a (.x .a (.y .a (.x (.y .a .c) .c))))))) (.y (.x (.y .a (.x .a (.y .a (.x .a (.y (.x .a .c) .c))))) (.y (.x (.y .a (.x .a (.y .a (.x .a .c)))) (.y (.x .a (.y (.x .a .c) .c)) .c)) (.x (.y (.x (.y .a .c) .c) .c) .b))) (.x (.y (.x (.y .a (.x .a (.y (.x .a .c) .c))) (.y (.x (.y (.x .a .c) .c) .b) .b)) (.x (.x (.y (.x (.y .a .c) .c) .b) .b) .b)) .b))) (.x (.y (.x .c .b) .b) .b)) .b) (.x (.y (.x (.x (.x .a (.x (.y (.x .a (.y .a (.x .a (.y .a .c)))) (.x (.y .a (.x .a .c)) (.y (.x (.y .a .c) .b) .b))) (.y (.x (.y (.x .a .c) .c) .b) .b))) .b) .b) (.x (.y (.x (.x .a (.x (.x (.x (.y (.x .a .c) .c) .b) .b) .b)) .b) (.x (.y (.x .a .b) (.x .a .d)) (.y .d (.x .d .a)))) (.y (.y (.x .b .d) (.x .d (.y .d .a))) (.x (.y (.x .d .a) .a) .a)))) (.y (.y (.x .b (.y .d .d)) (.x (.y .d (.x .d .a)) .a)) .a))))) (.y (.x .b .a) (.y (.x (.y (.x .b (.y .a (.x .d (.y .a (.x .d .a))))) (.x (.y (.x .b .d) (.x .d (.y (.x .d .a) .a))) (.y (.x (.y (.x .d .a) .a) .a) .a))) (.y (.x .a .a) .a)) (.x (.y (.x (.y (.x (.y (.x .d .a) .a) .a) .a) .a) .a) .a)))
theorem subv_0_1_c : chk 200000 38350 800000 2000000 2038350 2000000 (vSubv lcR1 bd4 200000 38350 subv_0_1_t) = true := by decide +kernel
def subv_0_2_t : Tr4 := .y .a (.x .a .a)
theorem subv_0_2_c : chk 300000 38350 1300000 2000000 2038350 2000000 (vSubv lcR2 bd4 300000 38350 subv_0_2_t) = true := by decide +kernel
def subv_0_3_t : Tr4 := .y .a .a
theorem subv_0_3_c : chk 200000 38350 1800000 2000000 2038350 2000000 (vSubv lcR3 bd4 200000 38350 subv_0_3_t) = true := by decide +kernel
def subv_1_0_t : Tr4 := .x .a (.x .a .a)
theorem subv_1_0_c : chk 300000 38350 300000 2000000 2038350 2000000 (vSubv lcR1 bd5 300000 38350 subv_1_0_t) = true := by decide +kernel
def subv_1_1_t : Tr4 := .x (.x (.y (.x .a .a) .a) (.y (.x (.x (.y .a (.x .a .a)) (.y (.x .a (.y .a (.x .a (.y .a (.y .a (.x .a (.y (.x .a .c) .c))))))) (.y (.x (.x .a (.y .a .a)) (.y (.x (.x .a (.y .a (.x (.y .a .c) .c))) (.y (.x (.x (.y .a .c) .c) .b) .b)) (.x (.x .a .b) .b))) .a))) (.y (.x (.y (.x (.y .a (.x .a (.y .a (.x .a (.y (.x .a .c) .c))))) (.y (.x (.y .a (.x .a (.y .a .c))) (.y (.x (.y .a (.x .a .c)) .c) .c)) (.x (.y (.x (.y .a .c) .c) .c) .b))) (.x (.y (.x (.y .a (.x .a (.y (.x .a .c) .c))) (.y (.x (.y (.x .a .c) .c) .c) .c)) (.x (.y (.x (.y (.x .a .c) .c) .b) .b) .b)) .b)) (.y .b .b)) .b)) .a)) (.y (.y .b (.x .b (.y .b (.x (.y .b (.x .b (.y .b (.x .b .d)))) (.y (.x .b (.y .b .d)) .d))))) (.x (.y (.y (.x .b (.y (.x .b .b) (.x (.y .b (.x .a (.y (.x .b .b) .a))) (.y (.x (.y .b .d) .d) .d)))) (.x .a .d)) .a) (.y (.x (.y (.y (.x (.y (.x .b .d) .d) .d) .a) .a) .a) .a)))
theorem subv_1_1_c : chk 200000 38350 800000 2000000 2038350 2000000 (vSubv lcR1 bd5 200000 38350 subv_1_1_t) = true := by decide +kernel
def subv_1_2_t : Tr4 := .y (.x (.y (.x (.x .b (.y .b (.x .b (.y .b .d)))) (.y (.x .b .b) (.x (.y .d (.x .d (.y .d .a))) (.y (.y .d (.x .d .a)) .a)))) (.x (.x (.y (.x (.y .b (.x .b (.y .b .d))) (.y .b .d)) (.x (.y .d .a) .a)) (.y (.y (.x .d (.y .d .a)) .a) .a)) .a)) (.y (.y (.y (.x .d (.y .d (.x (.y .d .a) .a))) (.x (.x (.y .d (.x .d (.y .d .a))) (.y (.y .d (.x .d .a)) .a)) .a)) .a) .a)) (.x .a .a)
theorem subv_1_2_c : chk 300000 38350 1300000 2000000 2038350 2000000 (vSubv lcR2 bd5 300000 38350 subv_1_2_t) = true := by decide +kernel
def subv_1_3_t : Tr4 := .y (.y (.y (.y (.y .a (.x .a .a)) (.x .a (.y .a .a))) (.y (.x .a .a) .a)) .a) .a
theorem subv_1_3_c : chk 200000 38350 1800000 2000000 2038350 2000000 (vSubv lcR3 bd5 200000 38350 subv_1_3_t) = true := by decide +kernel
def subw_0_0_t : Tr4 := .x .a .a
theorem subw_0_0_c : chk 300000 24000 300000 2000000 1976000 2000000 (vSubw lcR1 bd4 300000 24000 subw_0_0_t) = true := by decide +kernel
def subw_0_1_t : Tr4 := .x (.x .a .a) .a
theorem subw_0_1_c : chk 200000 24000 800000 2000000 1976000 2000000 (vSubw lcR1 bd4 200000 24000 subw_0_1_t) = true := by decide +kernel
def subw_0_2_t : Tr4 := .a
theorem subw_0_2_c : chk 300000 24000 1300000 2000000 1976000 2000000 (vSubw lcR2 bd4 300000 24000 subw_0_2_t) = true := by decide +kernel
def subw_0_3_t : Tr4 := .a
theorem subw_0_3_c : chk 400000 24000 2000000 2000000 1976000 2000000 (vSubw lcR3 bd4 400000 24000 subw_0_3_t) = true := by decide +kernel
def subw_0_4_t : Tr4 := .x .a .a
theorem subw_0_4_c : chk 500000 24000 2900000 2000000 1976000 2000000 (vSubw lcR4 bd4 500000 24000 subw_0_4_t) = true := by decide +kernel
def subw_0_5_t : Tr4 := .x (.x .a .a) .a
theorem subw_0_5_c : chk 800000 24000 4200000 2000000 1976000 2000000 (vSubw lcR5 bd4 800000 24000 subw_0_5_t) = true := by decide +kernel
def subw_1_0_t : Tr4 := .x .a .a
theorem subw_1_0_c : chk 300000 24000 300000 2000000 1976000 2000000 (vSubw lcR1 bd5 300000 24000 subw_1_0_t) = true := by decide +kernel
def subw_1_1_t : Tr4 := .x (.x .a (.y .a (.x .a (.x (.y .a (.x .a (.y .a (.x .a (.y .a .a))))) (.y (.x .a (.y .a (.x .a (.y .a (.x (.y .a .c) .c))))) (.x (.y (.x .a (.y .a (.x .a (.y .a .c)))) (.x (.y (.x .a (.y .a .c)) (.x (.y (.x .a .c) .c) .c)) (.y .c .b))) (.y (.x (.y (.x (.y .a .c) .c) .c) .c) .b))))))) (.x (.y (.x (.y (.x .a (.y .a (.x .a (.y .a .c)))) (.x (.y .a (.x .a (.x (.y .a (.x .a .c)) (.y (.x .a .c) .c)))) (.y (.x (.y (.x .a .c) (.x .c .c)) (.y .c .b)) (.x (.y .c .b) .b)))) (.y (.x (.y (.x .c (.y .a .c)) (.x (.y .c .b) .b)) .b) .b)) (.x (.y (.x (.y (.x (.x .a (.y .a .c)) (.y (.x .c .b) .b)) (.x (.y (.x (.x .c .c) .b) .c) .b)) .b) .b) .b)) .b)
theorem subw_1_1_c : chk 200000 24000 800000 2000000 1976000 2000000 (vSubw lcR1 bd5 200000 24000 subw_1_1_t) = true := by decide +kernel
def subw_1_2_t : Tr4 := .x (.y .b (.x .b .b)) (.y .a (.y .a (.y .a (.y .b (.x .b .b)))))
theorem subw_1_2_c : chk 300000 24000 1300000 2000000 1976000 2000000 (vSubw lcR2 bd5 300000 24000 subw_1_2_t) = true := by decide +kernel
def subw_1_3_t : Tr4 := .y .a (.y .a (.x (.y .a (.y .a (.y .a (.x .d .a)))) (.y .a (.y .a (.x .a .a)))))
theorem subw_1_3_c : chk 400000 24000 2000000 2000000 1976000 2000000 (vSubw lcR3 bd5 400000 24000 subw_1_3_t) = true := by decide +kernel
def subw_1_4_t : Tr4 := .x (.y .a (.x (.y .a (.y .a .b)) .b)) (.y .a (.x .a .a))
theorem subw_1_4_c : chk 500000 24000 2900000 2000000 1976000 2000000 (vSubw lcR4 bd5 500000 24000 subw_1_4_t) = true := by decide +kernel
def subw_1_5_t : Tr4 := .x (.x .a .a) .a
theorem subw_1_5_c : chk 800000 24000 4200000 2000000 1976000 2000000 (vSubw lcR5 bd5 800000 24000 subw_1_5_t) = true := by decide +kernel

end If97.Tm
