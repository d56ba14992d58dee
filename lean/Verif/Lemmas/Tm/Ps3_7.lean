import Verif.Lemmas.Tm.Comp.Region3

/-! T and v from (p, s) in region 3, above 373.946 degC, part 7 (generated subdivisions, checked in the kernel) -/

namespace If97.Tm
set_option maxRecDepth 100000

def ps3_t36 : Tr4 := .y (.x (.y (.x .a .a) (.y .a .a)) (.y .a (.y .a .a))) (.y (.y (.x .a .a) (.x .a .a)) (.y .a .a))
theorem ps3_c36 : chk 500000 250309 10100000 8000000 15749691 16000000 (vPs3 lcR4 500000 250309 ps3_t36) = true := by decide +kernel
def ps3_t37 : Tr4 := .y (.x (.x (.y (.y .a .a) (.x (.y .a (.x .a .a)) (.y .a .a))) (.y .a (.y .a .a))) (.y .a (.y .a (.x .a .a)))) (.x (.y (.x (.y .a .a) (.y .a .a)) .a) (.y (.x (.y .a (.y .a .a)) (.y (.x .a .a) .a)) (.x (.y .a .a) (.x (.y .a .a) (.y .a .a)))))
theorem ps3_c37 : chk 500000 250309 11100000 8000000 15249073 16000000 (vPs3 lcR4 500000 250309 ps3_t37) = true := by decide +kernel
def ps3_t38 : Tr4 := .y (.y (.x .a (.y .a .a)) (.x (.y .a (.y .a .a)) .a)) (.y (.x (.y (.y .a (.x .a .a)) (.x (.y .a .a) (.y .a .a))) (.y (.x (.y .a .a) .a) (.x (.y .a .a) (.x .a .a)))) (.x (.y (.y .a .a) .a) (.x (.y (.y .a .a) .a) (.y .a .a))))
theorem ps3_c38 : chk 500000 250309 11100000 8000000 15749691 16000000 (vPs3 lcR4 500000 250309 ps3_t38) = true := by decide +kernel
def ps3_t39 : Tr4 := .x (.y .b (.x .b (.y .b (.x .b (.y .b (.x .b (.y .b .c))))))) (.y (.x .b (.y (.x .b (.y (.x .b .c) .c)) (.x (.y (.x .b .c) .c) (.x .c .a)))) (.x (.y (.x .b (.y (.x .b .c) .c)) (.x (.y (.x (.y .b .c) .c) .c) .c)) (.x (.y .c .a) .a)))
theorem ps3_c39 : chk 500000 250309 12100000 8000000 28245365 32000000 (vPs3 lcR4 500000 250309 ps3_t39) = true := by decide +kernel

end If97.Tm
