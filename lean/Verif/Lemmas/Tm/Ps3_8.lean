import Verif.Lemmas.Tm.Comp.Region3

/-! T and v from (p, s) in region 3, above 373.946 degC, part 8 (generated subdivisions, checked in the kernel) -/

namespace If97.Tm
set_option maxRecDepth 100000

def ps3_t40 : Tr4 := .x (.y (.x (.y .b (.x .b (.y .b (.x .b .c)))) (.y (.x (.y .b (.x .b .c)) .c) (.x .c .a))) (.x (.y (.x (.y .b (.x .b .c)) .c) (.x .c .a)) .a)) (.y (.x (.y .a .a) .a) .a)
theorem ps3_c40 : chk 500000 250309 12100000 8000000 28745983 32000000 (vPs3 lcR4 500000 250309 ps3_t40) = true := by decide +kernel
def ps3_t41 : Tr4 := .y (.x (.y (.x .a .a) .a) (.y .a .a)) (.y (.x .a .a) .a)
theorem ps3_c41 : chk 500000 250309 12100000 8000000 14748455 16000000 (vPs3 lcR4 500000 250309 ps3_t41) = true := by decide +kernel
def ps3_t42 : Tr4 := .y (.y (.x (.y (.x (.x (.y (.y .c .a) (.x .a .a)) (.y (.x .a .a) .a)) (.y (.x (.x .a .a) .a) (.x .a .a))) (.y (.x .a .a) .a)) (.y (.x (.y .a .a) .a) .a)) (.y .a .a)) (.y (.y (.x .a .a) (.x (.x .a .a) (.x .a .a))) (.x (.y (.x .a .a) .a) (.y (.x .a (.x .a .a)) (.x (.y .a .a) .a))))
theorem ps3_c42 : chk 500000 250309 13100000 8000000 7249073 8000000 (vPs3 lcR4 500000 250309 ps3_t42) = true := by decide +kernel
def ps3_t43 : Tr4 := .y (.x (.y .a (.y .a .a)) .a) (.x (.y (.y (.x .a .a) (.x (.x .a (.y .a .a)) (.y .a (.x .a .a)))) (.y (.x (.x .a (.y .a .a)) (.x (.y .a .a) .a)) (.y (.x .a .a) .a))) (.y (.x (.y .a .a) .a) (.x (.y .a .a) .a)))
theorem ps3_c43 : chk 500000 250309 12100000 8000000 15249073 16000000 (vPs3 lcR4 500000 250309 ps3_t43) = true := by decide +kernel

end If97.Tm
