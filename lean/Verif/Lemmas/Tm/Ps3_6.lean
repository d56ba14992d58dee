import Verif.Lemmas.Tm.Comp.Region3

/-! T and v from (p, s) in region 3, above 373.946 degC, part 6 (generated subdivisions, checked in the kernel) -/

namespace If97.Tm
set_option maxRecDepth 100000

def ps3_t32 : Tr4 := .x (.y (.x (.y (.x .b (.y .b .c)) (.x (.y .b .c) .c)) (.y .c .a)) (.x (.y (.x .c .a) .a) .a)) (.y .a .a)
theorem ps3_c32 : chk 500000 250309 11100000 8000000 29747219 32000000 (vPs3 lcR4 500000 250309 ps3_t32) = true := by decide +kernel
def ps3_t33 : Tr4 := .x (.y (.x .b .b) (.x (.y .b (.x .b (.y .b (.x .b .c)))) (.y (.x .b .c) .c))) (.y (.x (.y (.x .b .c) .c) (.y (.x .c .a) (.x .a .a))) (.x (.y (.x .c .a) (.x .a (.y .a (.x .a .a)))) (.y (.x (.y .a .a) (.y .a .a)) (.x (.y (.x .a .a) (.x (.y .a .a) .a)) (.x (.y .a .a) .a)))))
theorem ps3_c33 : chk 500000 250309 10100000 8000000 30247837 32000000 (vPs3 lcR4 500000 250309 ps3_t33) = true := by decide +kernel
def ps3_t34 : Tr4 := .x (.y (.y (.x (.y .b .c) .c) .c) (.x .a .a)) (.y (.x .a (.y .a (.x .a .a))) (.x .a (.y .a .a)))
theorem ps3_c34 : chk 500000 250309 19700000 16000000 30748455 32000000 (vPs3 lcR4 500000 250309 ps3_t34) = true := by decide +kernel
def ps3_t35 : Tr4 := .y (.x (.x (.y (.y .a (.x .a .a)) (.x (.y .a .a) (.y .a .a))) (.y (.y (.x .a (.y .a .a)) (.x (.x .a .a) (.x .a .a))) (.y (.x .a (.y .a .a)) (.x .a .a)))) (.y (.x (.y (.x (.y .a .a) (.x .a .a)) (.x (.y .a .a) .a)) (.y (.x .a .a) .a)) (.x (.y (.x .a .a) .a) .a))) (.x (.y (.x (.y .a .a) (.y .a .a)) .a) .a)
theorem ps3_c35 : chk 500000 250309 20700000 16000000 30748455 32000000 (vPs3 lcR4 500000 250309 ps3_t35) = true := by decide +kernel

end If97.Tm
