import Verif.Lemmas.Tm.Comp.Region3

/-! T and v from (p, s) in region 3, above 373.946 degC, part 2 (generated subdivisions, checked in the kernel) -/

namespace If97.Tm
set_option maxRecDepth 100000

def ps3_t11 : Tr4 := .y (.x (.y (.y .b .b) (.y (.x .b .b) .b)) (.y (.y .b (.y .b .b)) (.y (.y .b .b) .b))) (.x (.y (.y .b (.y .b .b)) (.y (.y .b .b) (.y .b .b))) (.y (.y .b (.y .b .b)) (.y (.y .b .b) (.x (.y .b .b) (.y .b (.y .b (.x .b (.y .b (.x .b (.y .b .c))))))))))
theorem ps3_c11 : chk 400000 250309 3600000 4000000 3749691 4000000 (vPs3 lcR3 400000 250309 ps3_t11) = true := by decide +kernel
def ps3_t12 : Tr4 := .x (.y (.y .b (.y .b .b)) (.y (.y .b .b) .b)) (.y (.y .b (.x .b .b)) (.y (.y .b .b) .b))
theorem ps3_c12 : chk 400000 250309 4400000 4000000 7249073 8000000 (vPs3 lcR3 400000 250309 ps3_t12) = true := by decide +kernel
def ps3_t13 : Tr4 := .y (.y .b .b) (.y (.x .b .b) (.x .b .b))
theorem ps3_c13 : chk 400000 250309 8400000 8000000 15249073 16000000 (vPs3 lcR3 400000 250309 ps3_t13) = true := by decide +kernel
def ps3_t14 : Tr4 := .x (.y .b (.y .b .b)) (.y .b (.x (.y .b .b) (.y .b (.x (.y .b (.x .b .c)) (.y (.x (.y .b .c) .c) .c)))))
theorem ps3_c14 : chk 400000 250309 8400000 8000000 31249073 32000000 (vPs3 lcR3 400000 250309 ps3_t14) = true := by decide +kernel
def ps3_t15 : Tr4 := .y (.x .b (.y .b (.x .b (.y .b (.x (.y .b (.x .b .c)) .c))))) (.y (.x (.x .b (.y .b (.x .b (.y .b .c)))) (.x (.y (.x .b (.y (.x .b (.y .b .c)) .c)) .c) (.y (.x .c .a) .a))) (.x (.y (.x (.y .b (.x .b .c)) .c) .c) .a))
theorem ps3_c15 : chk 400000 250309 16400000 16000000 31749691 32000000 (vPs3 lcR3 400000 250309 ps3_t15) = true := by decide +kernel

end If97.Tm
