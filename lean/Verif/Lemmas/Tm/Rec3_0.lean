import Verif.Lemmas.Tm.Comp.Region3r

/-! Recognition of region 3 (generated subdivisions, checked in the kernel). -/

namespace If97.Tm
set_option maxRecDepth 100000

def e13_0_t : Tr4 := .x (.x (.x .a .a) (.x .a .a)) (.x .a (.x .a .a))
theorem e13_0_c : chk 7936 0 52064 2000 27720 12463 (vE13 bd0 7936 0 e13_0_t) = true := by decide +kernel
def e32_0_t : Tr4 := .x (.x (.x .a (.x .a .a)) (.x (.x .a .a) .a)) (.x (.x .a .a) (.x (.x .a .a) .a))
theorem e32_0_c : chk 67065 0 2518679 2000000 1 1 (vE32 sk9 lcB0 bd0 67065 0 e32_0_t) = true := by decide +kernel
def e13_2_t : Tr4 := .x (.x (.x .a .a) (.x .a .a)) (.x .a (.x .a .a))
theorem e13_2_c : chk 25000 0 115000 2000 27720 12463 (vE13 bd2 25000 0 e13_2_t) = true := by decide +kernel
def e32_2_t : Tr4 := .x (.x (.x (.x .a .a) (.x .a .a)) (.x (.x .a .a) (.x .a .a))) (.x (.x (.x .a .a) (.x .a .a)) (.x (.x .a .a) (.x .a .a)))
theorem e32_2_c : chk 111004 0 2878284 2000000 1 1 (vE32 sk11 lcB2 bd2 111004 0 e32_2_t) = true := by decide +kernel
def e13_4_t : Tr4 := .x .a .a
theorem e13_4_c : chk 2000 0 35000 2000 27720 12463 (vE13 bd4 2000 0 e13_4_t) = true := by decide +kernel
def e32_4_t : Tr4 := .x (.x (.x .a (.x .a (.x .a .a))) (.x (.x (.x .a .a) .a) .a)) (.x .a (.x (.x .a .a) .a))
theorem e32_4_c : chk 30963 0 2337873 2000000 1 1 (vE32 sk9 lcB4 bd4 30963 0 e32_4_t) = true := by decide +kernel
def rec_0_0_t : Tr4 := .x .a (.y (.x .a (.y .a .a)) (.x .a (.y .a .a)))
theorem rec_0_0_c : chk 300000 288659 300000 2000000 1788041 2000000 (vRec lcR1 bd0 300000 288659 rec_0_0_t) = true := by decide +kernel
def rec_0_1_t : Tr4 := .y (.y .a .a) (.y (.x (.y .a .a) (.y .a (.y (.x .a .a) (.x (.y .a .a) (.y (.x .a (.y (.x .a (.y .a (.x .a .c))) (.x (.y .a (.x .a .c)) (.y (.x .c .c) .c)))) (.x (.y (.x .a (.y .a (.x .a .c))) (.x (.y .a (.x .a .c)) (.y .c (.x .c .b)))) (.y (.x (.y (.x .c .c) .c) .b) .b))))))) (.x (.y (.x .a (.y .a .a)) .a) (.y (.y (.x (.y (.x .a (.y (.x .a (.y .a (.x .a .c))) (.x (.y .a (.x .a .c)) (.y .c (.x .c .b))))) (.x (.y .a .a) (.y (.x (.x (.y .a .c) (.y .c .c)) .b) (.x .a .b)))) (.y (.x (.y (.x (.y .c (.x .c .b)) .b) .b) .b) .b)) (.x .a .b)) .a)))
theorem rec_0_1_c : chk 200000 288659 800000 2000000 1788041 2000000 (vRec lcR1 bd0 200000 288659 rec_0_1_t) = true := by decide +kernel
def rec_0_2_t : Tr4 := .y (.y .a (.y .a (.x .a .a))) (.y (.x (.y (.x (.y .a (.x .a (.y .a (.x .a (.y .a (.x .a (.y .a .c))))))) (.y .a (.x (.y .a (.x (.y (.x .a .a) (.x (.y .c .c) .c)) (.y .a .b))) .a))) (.x (.y (.x (.y .a (.x (.y .a (.x .a (.y .a .c))) (.y (.x (.y .a .c) (.y .c .c)) (.x (.y .c .c) .b)))) (.y (.x (.y .a (.x (.y .a .c) (.y .c .c))) (.y (.x (.y .a .c) .c) (.x (.y .c .b) .b))) (.x (.y (.x (.y .c .b) .b) .b) .b))) (.x (.y (.x (.y (.x (.y .c .c) (.y .c .b)) .b) .b) .b) .b)) (.y (.x (.y .b .b) .b) .b))) (.y .a .b)) (.y .b .b))
theorem rec_0_2_c : chk 300000 288659 1300000 2000000 1788041 2000000 (vRec lcR2 bd0 300000 288659 rec_0_2_t) = true := by decide +kernel
def rec_0_3_t : Tr4 := .y (.y .a .a) (.y (.y .a .b) .b)
theorem rec_0_3_c : chk 400000 288659 2000000 2000000 1788041 2000000 (vRec lcR3 bd0 400000 288659 rec_0_3_t) = true := by decide +kernel
def rec_0_4_t : Tr4 := .y (.y .a (.x .a .a)) (.y (.y (.x .a .a) (.x .b (.y .a .b))) (.y .b (.x .b (.y .b .a))))
theorem rec_0_4_c : chk 500000 288659 2900000 2000000 1788041 2000000 (vRec lcR4 bd0 500000 288659 rec_0_4_t) = true := by decide +kernel
def rec_0_5_t : Tr4 := .x (.y .a (.y (.x .a .a) (.x (.y (.y .a .b) (.y .b (.y .b (.y .b (.y .b (.x .a (.y .b (.y .b (.y .b (.x .a .b)))))))))) (.y .a (.y (.x .b .a) (.y (.x .b .a) (.y (.x .b .a) (.x (.y .b (.y .b (.y .b .b))) (.y .a (.x (.y .a .b) .a)))))))))) (.y .a (.x (.y .a (.y .a .a)) .a))
theorem rec_0_5_c : chk 800000 288659 4200000 2000000 1788041 2000000 (vRec lcR5 bd0 800000 288659 rec_0_5_t) = true := by decide +kernel
def rec_1_0_t : Tr4 := .x .a (.y (.x .a (.y .a .a)) .a)
theorem rec_1_0_c : chk 300000 288659 300000 2000000 1788041 2000000 (vRec lcR1 bd1 300000 288659 rec_1_0_t) = true := by decide +kernel
def rec_1_1_t : Tr4 := .y (.y .a .a) (.y (.x .a (.y .a .a)) .a)
theorem rec_1_1_c : chk 200000 288659 800000 2000000 1788041 2000000 (vRec lcR1 bd1 200000 288659 rec_1_1_t) = true := by decide +kernel
def rec_1_2_t : Tr4 := .y (.y (.x .a .a) (.x (.y .a (.x .a .a)) (.y .a (.x (.y .a (.x .a (.y .a (.x .a (.y .a (.x (.y .a .c) .c)))))) (.y (.x .a (.y .a (.x (.y .a .a) (.y (.x .a (.y .a .a)) (.x (.y .a .c) (.y .c .c)))))) (.x (.y (.x .a (.y .a (.x (.y .a .c) (.y .c .c)))) (.x (.y (.x (.y .a .c) .c) (.x (.y .c .b) .b)) (.y (.x (.y .c .b) .b) .b))) (.y (.x (.y (.x (.y .a .c) (.y .c .c)) (.x (.y .c .b) .b)) (.y (.x (.y .c .b) .b) .b)) .b))))))) (.y (.x (.y (.x (.y .a (.x .a (.y .a (.x .a (.y .a .a))))) (.y (.x .a (.y .a (.x .a (.y .a (.x .a (.y .a .c)))))) (.x (.y (.x .a (.y .a (.x .a (.y .a .c)))) (.x (.y (.x .a (.y .a .c)) (.x (.y .c .a) .c)) (.y (.x (.y .c .c) (.y .c .b)) .b))) (.y (.x (.y (.x .a (.y .a .c)) (.x (.y .c .c) (.y .c .b))) (.y (.x .c (.y .c .b)) .b)) .b)))) (.x .a (.y (.x (.y .b .a) .b) .a))) (.y (.x (.y (.x (.y (.x .a (.y .a (.x (.y .a .c) (.y .c .c)))) (.x (.y (.x (.y .a .a) (.y .c .c)) (.x .c .b)) (.y (.x .c .b) .b))) (.y (.x (.y (.x (.y .a .c) (.y .c .c)) (.x (.y .c .b) .b)) (.y (.x (.y .c .b) .b) .b)) .b)) .b) .b) .b)) .a)
theorem rec_1_2_c : chk 300000 288659 1300000 2000000 1788041 2000000 (vRec lcR2 bd1 300000 288659 rec_1_2_t) = true := by decide +kernel
def rec_1_3_t : Tr4 := .y (.y (.x .a .a) (.x (.y (.x .a .a) (.x (.y (.x (.y (.x (.y .a (.x .a (.y .a .c))) (.y .a (.x (.y .a (.x .c .a)) .a))) (.x (.y (.x (.y (.x .a .c) (.x .c .c)) (.y (.x .c .b) .b)) (.x (.y .b .b) .b)) .b)) (.y .a .b)) .b) .b)) (.y .a .b))) (.y .b .b)
theorem rec_1_3_c : chk 400000 288659 2000000 2000000 1788041 2000000 (vRec lcR3 bd1 400000 288659 rec_1_3_t) = true := by decide +kernel
def rec_1_4_t : Tr4 := .y (.y .a (.y .a (.x .a .a))) (.y (.x .b .b) (.y .b .a))
theorem rec_1_4_c : chk 500000 288659 2900000 2000000 1788041 2000000 (vRec lcR4 bd1 500000 288659 rec_1_4_t) = true := by decide +kernel
def rec_1_5_t : Tr4 := .x (.y (.y .a .a) (.y (.x (.y .a .b) .a) (.y (.x .b (.y (.x .a .a) .b)) (.y .b (.y .b (.x .a (.y .b (.y .b (.y .b (.y .b (.y .b (.x (.y .b (.x .a .b)) .b)))))))))))) (.y .a (.x (.y .a (.y .a (.x (.y .a (.y .a (.y .b (.y .b (.y .b (.y .b (.x .b .a))))))) .a))) .a))
theorem rec_1_5_c : chk 800000 288659 4200000 2000000 1788041 2000000 (vRec lcR5 bd1 800000 288659 rec_1_5_t) = true := by decide +kernel
def rec_2_0_t : Tr4 := .a
theorem rec_2_0_c : chk 300000 288659 300000 2000000 1788041 2000000 (vRec lcR1 bd2 300000 288659 rec_2_0_t) = true := by decide +kernel
def rec_2_1_t : Tr4 := .y (.y .a .a) .a
theorem rec_2_1_c : chk 200000 288659 800000 2000000 1788041 2000000 (vRec lcR1 bd2 200000 288659 rec_2_1_t) = true := by decide +kernel
def rec_2_2_t : Tr4 := .y (.y (.x .a .a) (.x (.y .a .a) (.y .a (.x .a (.y (.x .a (.y .a .a)) .a))))) .a
theorem rec_2_2_c : chk 300000 288659 1300000 2000000 1788041 2000000 (vRec lcR2 bd2 300000 288659 rec_2_2_t) = true := by decide +kernel
def rec_2_3_t : Tr4 := .y (.y (.x (.y .a (.x .a (.y .a (.x .a (.y .a (.x .a (.y (.x .a (.y .a (.x .a .c))) (.x (.y .c (.x .c .c)) (.y (.x .c .c) .b))))))))) (.y (.x .a .a) (.x (.y (.x (.y .a (.x .a (.y .a (.x .a (.y (.x .a (.y .a .c)) (.x (.y .c .c) .c)))))) (.y .a (.x (.y .a (.x (.y .a .b) .a)) .a))) (.x (.y (.x (.y (.x .a (.y .a (.x .a .c))) (.x (.y .a (.x .a .c)) (.y (.x .c .c) (.x .c .b)))) (.y (.x (.y (.x .a .c) (.x .c .b)) (.y (.x .c .b) .b)) .b)) (.x (.y (.x (.y (.x .c .c) .c) .b) .b) .b)) .b)) .b))) (.x (.y (.x (.y .a (.x (.y .a (.x .a (.y .a .a))) (.y (.x .a (.y .a (.x (.y .a .c) (.y (.x .c .c) (.x .c .b))))) (.x (.y (.x .a (.y .a .c)) (.x (.y .c (.x .c .c)) (.y (.x .c .b) .b))) (.y (.x (.y (.x .c .c) (.x .c .b)) .b) .b))))) (.y (.x (.y (.x .a (.y .a (.x .a (.y .a .c)))) (.x (.y .a (.x .a (.y .c (.x .c .c)))) (.y (.x (.y .a .c) (.y (.x .c .c) .c)) (.x (.y (.x .c .c) .b) .b)))) (.y (.x (.y (.x .a (.y (.x .a .c) (.x .c .c))) (.x (.y (.x .a .c) (.x .c .b)) (.y .c .b))) (.y (.x (.y (.x .c .b) .b) .b) .b)) .b)) (.x (.y (.x (.y (.x (.y .c (.x .c .c)) (.y (.x .c .b) .b)) (.x (.y .c .b) .b)) .b) .b) .b))) (.x (.y (.x (.y (.x (.y .a (.x .a (.y .a .c))) (.y (.x (.y .a (.x .a .c)) (.y .c (.x .c .b))) (.x (.y (.x .c .c) (.x .c .b)) .b))) (.x .a .b)) (.y (.x (.y (.x (.y (.x .c .b) .b) .b) .b) .b) .b)) .b) .b)) .b)) (.y .b .a)
theorem rec_2_3_c : chk 400000 288659 2000000 2000000 1788041 2000000 (vRec lcR3 bd2 400000 288659 rec_2_3_t) = true := by decide +kernel
def rec_2_4_t : Tr4 := .y (.y (.x (.x (.y .a .a) .a) .a) .b) (.y .b .a)
theorem rec_2_4_c : chk 500000 288659 2900000 2000000 1788041 2000000 (vRec lcR4 bd2 500000 288659 rec_2_4_t) = true := by decide +kernel
def rec_2_5_t : Tr4 := .x (.y (.y .a (.x (.x .a .a) .a)) (.y .b (.y .b (.y .b (.y .b (.x .a (.y .b .a))))))) (.y (.x .a .a) (.x (.y .a (.y .b (.y .b (.y .b (.y .b (.y .b (.y .b (.y .b (.y .b (.y .b (.x .b .b))))))))))) (.y .a (.x .a .a))))
theorem rec_2_5_c : chk 800000 288659 4200000 2000000 1788041 2000000 (vRec lcR5 bd2 800000 288659 rec_2_5_t) = true := by decide +kernel
def rec_3_0_t : Tr4 := .a
theorem rec_3_0_c : chk 300000 288659 300000 2000000 1788041 2000000 (vRec lcR1 bd3 300000 288659 rec_3_0_t) = true := by decide +kernel
def rec_3_1_t : Tr4 := .a
theorem rec_3_1_c : chk 200000 288659 800000 2000000 1788041 2000000 (vRec lcR1 bd3 200000 288659 rec_3_1_t) = true := by decide +kernel
def rec_3_2_t : Tr4 := .y .a .a
theorem rec_3_2_c : chk 300000 288659 1300000 2000000 1788041 2000000 (vRec lcR2 bd3 300000 288659 rec_3_2_t) = true := by decide +kernel
def rec_3_3_t : Tr4 := .y (.y (.x (.y .a (.x .a (.y .a .a))) (.y (.x (.y .a (.x .a (.y .a (.x .a (.y .a (.x .a (.y .a (.x .a .c)))))))) (.y (.x (.y .a (.x .a (.y .a (.x .a (.y .a .c))))) (.y (.x (.y .a .a) (.y (.x .a (.y (.x .a (.y .c (.x .c (.x (.y .c .b) .b)))) (.x (.y .c (.x .c (.y (.x .c .b) .b))) (.x (.y (.y (.x .c .b) .b) .b) .b)))) (.x (.y (.x .a (.y .c (.x .c (.y (.x .c .b) .b)))) (.x (.y .c (.x .c (.y .c .b))) (.x (.y (.y (.x .c .b) .b) .b) .b))) (.x (.y (.x (.y (.y (.x .c .b) .b) .b) .b) .b) .b)))) (.x (.y (.x (.y .a .c) (.y (.x .a (.y .c (.x .c (.y .c .b)))) (.x (.y .c (.x .c .b)) (.x (.y (.y .c .b) .b) .b)))) (.x (.y (.x .c (.y .c .c)) (.x (.y .c .c) .b)) .b)) (.y (.y (.x (.x (.x (.y (.y .c .b) .b) .b) .b) .b) .b) .b)))) (.x (.y (.x (.y .a (.x .a (.y .a (.x .a .c)))) (.y (.x (.y .a (.x .a .c)) (.y (.x .c .c) (.x .c .b))) (.x (.y (.x .c .c) .c) .b))) (.x (.y (.x (.y .a (.x .a .c)) (.y .c (.x .c .b))) (.x (.y (.x .c .c) (.x .c .b)) .b)) .b)) .b))) (.x (.y (.x (.y .a (.x .a (.y .a (.x .a (.y (.x .a (.y .c .c)) (.x .a .c)))))) (.y (.x (.y .a (.x .a (.y (.x .a (.y .a .c)) (.x (.y .a .c) (.y .c .c))))) (.y (.x (.y .a (.x .c (.y .c .c))) (.y (.x (.y .c .c) .c) (.x .c .b))) (.x (.y (.x (.y .c .c) .b) .b) .b))) (.x (.y (.x (.y (.x .a (.y .a .c)) (.x (.y .a .c) .c)) (.y (.x (.y .c .c) .b) .b)) (.x (.y (.x .c .b) .b) .b)) .b))) (.x .a .b)) .b))) (.x .a .b)) .a
theorem rec_3_3_c : chk 400000 288659 2000000 2000000 1788041 2000000 (vRec lcR3 bd3 400000 288659 rec_3_3_t) = true := by decide +kernel
def rec_3_4_t : Tr4 := .y (.x (.y (.x (.y (.y (.x (.y (.x (.x (.y (.x (.y (.x (.y (.x (.y .c .b) .b) .b) .b) .b) .b) .b) .b) .b) .b) .b) .b) .b) .b) .b) (.x .b (.y .b .b))) .b
theorem rec_3_4_c : chk 500000 288659 2900000 2000000 1788041 2000000 (vRec lcR4 bd3 500000 288659 rec_3_4_t) = true := by decide +kernel
def rec_3_5_t : Tr4 := .y (.x (.y (.x .a .a) (.x .b (.x .b .a))) (.x .a .a)) (.y (.x .b (.x (.x .b .a) .a)) (.y (.x .b (.x .b (.x .a .a))) (.x .a (.y (.x .b .b) (.y .b (.y (.x .b .b) (.y (.x .b .b) (.x (.y .b (.y .b (.y .b (.x .a .b)))) (.y .b (.x .b .a))))))))))
theorem rec_3_5_c : chk 800000 288659 4200000 2000000 1788041 2000000 (vRec lcR5 bd3 800000 288659 rec_3_5_t) = true := by decide +kernel

end If97.Tm
