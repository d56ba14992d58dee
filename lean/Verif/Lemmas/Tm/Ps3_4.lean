import Verif.Lemmas.Tm.Comp.Region3

/-! T and v from (p, s) in region 3, above 373.946 degC, part 4 (generated subdivisions, checked in the kernel) -/

namespace If97.Tm
set_option maxRecDepth 100000

def ps3_t22 : Tr4 := .y (.x (.y (.x .b (.y (.x (.y (.x (.y (.x .b .d) .b) (.y .d (.x (.y .d .b) .d))) (.x .b (.y (.x .b (.y .d .b)) .b))) (.y .d (.x (.y .d (.x .b .d)) .d))) (.x .b (.y (.x .b (.y .d (.x .b (.y .d .b)))) .b)))) .b) (.y (.x (.y .d (.x (.y .d (.x (.y (.x .b .d) .b) .d)) .d)) .d) (.x (.y (.x .b (.y (.x (.y .d (.x .b .d)) .d) (.x .b (.y .d .b)))) .b) (.y .d (.x (.y (.x .b .d) .b) (.x .d .d)))))) (.y (.x .b .b) (.x .b .b))
theorem ps3_c22 : chk 500000 250309 11100000 8000000 12745983 16000000 (vPs3 lcR4 500000 250309 ps3_t22) = true := by decide +kernel
def ps3_t23 : Tr4 := .x (.y (.y (.x .b .b) (.x .b .b)) (.y (.y .b .b) .b)) (.y (.y (.x .b .b) .b) (.y .b .b))
theorem ps3_c23 : chk 500000 250309 5300000 4000000 6748455 8000000 (vPs3 lcR4 500000 250309 ps3_t23) = true := by decide +kernel
def ps3_t24 : Tr4 := .x (.y .d (.y .d (.x (.y (.y (.x (.y .d (.x (.x .b .d) .d)) .d) (.x (.x .b (.y .d .b)) .d)) (.x .b (.y (.x (.y (.x .b .d) .b) .d) .b))) (.y .d (.x (.y .d (.x (.y .d (.x .b .d)) .d)) .d))))) .d
theorem ps3_c24 : chk 500000 250309 6300000 4000000 6247837 8000000 (vPs3 lcR4 500000 250309 ps3_t24) = true := by decide +kernel
def ps3_t25 : Tr4 := .y (.y (.y (.x .b (.y (.x (.x .b (.y .d (.x .b .d))) .d) (.x .b (.x (.y (.x .b .d) .b) .d)))) (.x .b (.y .b .b))) (.x .b (.y (.x .b .b) .b))) (.y .b .b)
theorem ps3_c25 : chk 500000 250309 12100000 8000000 6748455 8000000 (vPs3 lcR4 500000 250309 ps3_t25) = true := by decide +kernel
def ps3_t26 : Tr4 := .y (.x (.y .d (.x (.y (.x (.y .d (.x .b .d)) .d) (.x .b (.y .d .b))) .d)) .d) (.x (.y (.x (.y .b .b) (.y (.x .b .d) (.x .b .b))) (.y (.x .b .b) .b)) (.x (.y .d (.x .b .b)) (.y .d (.x .b .d))))
theorem ps3_c26 : chk 500000 250309 13100000 8000000 13246601 16000000 (vPs3 lcR4 500000 250309 ps3_t26) = true := by decide +kernel

end If97.Tm
