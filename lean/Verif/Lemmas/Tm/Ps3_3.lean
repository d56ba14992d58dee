import Verif.Lemmas.Tm.Comp.Region3

/-! T and v from (p, s) in region 3, above 373.946 degC, part 3 (generated subdivisions, checked in the kernel) -/

namespace If97.Tm
set_option maxRecDepth 100000

def ps3_t16 : Tr4 := .y (.x (.y (.x (.y .b (.x .b (.y .b .c))) (.y (.x .b (.y .b .c)) .c)) (.x (.y (.x (.y .b .c) .c) (.x (.y .c .a) .a)) .a)) (.y (.x (.y .c .a) .a) .a)) (.y .a .a)
theorem ps3_c16 : chk 400000 250309 17200000 16000000 31749691 32000000 (vPs3 lcR3 400000 250309 ps3_t16) = true := by decide +kernel
def ps3_t17 : Tr4 := .y (.y .b (.x .b .b)) (.x (.y .b .b) (.y (.x .b (.y .b (.x .b (.y .b .c)))) (.x (.y .b (.x (.y .b .c) .c)) (.y .c .c))))
theorem ps3_c17 : chk 400000 250309 9200000 8000000 15249073 16000000 (vPs3 lcR3 400000 250309 ps3_t17) = true := by decide +kernel
def ps3_t18 : Tr4 := .x (.y (.x (.y .b (.x .b (.y .b (.x .b .c)))) (.y (.x .b (.y (.x .b .c) .c)) (.x (.y .c .c) .c))) (.x (.y (.x (.y (.x .b .c) .c) (.y .c .a)) (.x (.y .c .a) .a)) (.y .a .a))) (.x (.y (.x (.y .c .a) .a) .a) (.y .a .a))
theorem ps3_c18 : chk 400000 250309 9200000 8000000 31249073 32000000 (vPs3 lcR3 400000 250309 ps3_t18) = true := by decide +kernel
def ps3_t19 : Tr4 := .x (.y (.x (.y .a .a) (.y .a .a)) (.y .a .a)) (.y (.y .a .a) .a)
theorem ps3_c19 : chk 400000 250309 9200000 8000000 31749691 32000000 (vPs3 lcR3 400000 250309 ps3_t19) = true := by decide +kernel
def ps3_t20 : Tr4 := .y (.x (.x (.y .b .b) (.y .b .b)) (.y (.x (.x (.y .d .b) .d) .d) (.x .b (.y (.x (.y (.x .b .d) .b) (.y .d (.x .b .d))) .b)))) (.y (.x .b .b) .b)
theorem ps3_c20 : chk 500000 250309 10100000 8000000 6247837 8000000 (vPs3 lcR4 500000 250309 ps3_t20) = true := by decide +kernel
def ps3_t21 : Tr4 := .x (.y .d (.x (.y .d (.x (.y (.x (.y .d .b) (.y .d (.x .b .d))) .b) (.y .d (.y (.x (.y .d .b) .d) (.x .b (.y (.x .b .d) .b)))))) (.x .d .d))) .d
theorem ps3_c21 : chk 500000 250309 11100000 8000000 12245365 16000000 (vPs3 lcR4 500000 250309 ps3_t21) = true := by decide +kernel

end If97.Tm
