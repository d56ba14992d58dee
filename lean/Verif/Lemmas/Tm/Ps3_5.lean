import Verif.Lemmas.Tm.Comp.Region3

/-! T and v from (p, s) in region 3, above 373.946 degC, part 5 (generated subdivisions, checked in the kernel) -/

namespace If97.Tm
set_option maxRecDepth 100000

def ps3_t27 : Tr4 := .y .b (.y (.x .b (.y (.x .b (.y .b (.x .b .c))) (.x (.y .b .c) (.y .c .c)))) (.x (.y (.x .b (.y .b .c)) (.x (.y (.x .b .c) .c) (.y .c .a))) (.y (.x (.y .c .c) (.y .a .a)) (.x (.y .a (.x .a .a)) (.y .a .a)))))
theorem ps3_c27 : chk 500000 250309 25700000 16000000 13747219 16000000 (vPs3 lcR4 500000 250309 ps3_t27) = true := by decide +kernel
def ps3_t28 : Tr4 := .y (.x (.y .b (.y .b (.x (.y .b (.x .b .c)) .c))) (.y (.x .b (.y .b .c)) (.y (.x .c .c) .c))) (.y (.x (.y (.x .c .a) (.x (.y .a .a) .a)) (.y .a .a)) (.x (.x (.y (.y .a .a) .a) .a) .a))
theorem ps3_c28 : chk 500000 250309 26700000 16000000 13747219 16000000 (vPs3 lcR4 500000 250309 ps3_t28) = true := by decide +kernel
def ps3_t29 : Tr4 := .y (.x .b .b) (.x (.y .b (.y .b .b)) (.y .b (.y .b (.x .b (.y (.x .b (.y .b .c)) .c)))))
theorem ps3_c29 : chk 500000 250309 10100000 8000000 7249073 8000000 (vPs3 lcR4 500000 250309 ps3_t29) = true := by decide +kernel
def ps3_t30 : Tr4 := .x .b (.y .b (.y .b (.x .b (.y .b (.x .b (.y (.x .b .c) .c))))))
theorem ps3_c30 : chk 500000 250309 11100000 8000000 14247837 16000000 (vPs3 lcR4 500000 250309 ps3_t30) = true := by decide +kernel
def ps3_t31 : Tr4 := .x (.y .b (.x .b (.y .b (.x (.y .b .c) .c)))) (.y (.x (.y .b (.x .b .c)) (.y (.x (.y (.x .b .c) .c) .c) .c)) (.x (.y (.x .c .c) (.x .c .a)) .a))
theorem ps3_c31 : chk 500000 250309 11100000 8000000 29246601 32000000 (vPs3 lcR4 500000 250309 ps3_t31) = true := by decide +kernel

end If97.Tm
