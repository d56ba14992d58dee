import Verif.Lemmas.Tm.Comp.Region3

/-! T and v from (p, h) in region 3, above 373.946 degC, part 0 (generated subdivisions, checked in the kernel) -/

namespace If97.Tm
set_option maxRecDepth 100000

def ph3_t0 : Tr4 := .x (.y .d (.x .d .d)) (.y .d (.y .d (.x .d .d)))
theorem ph3_c0 : chk 300000 250309 300000 2000000 1749691 2000000 (vPh3 300000 250309 ph3_t0) = true := by decide +kernel
def ph3_t1 : Tr4 := .y .d .d
theorem ph3_c1 : chk 200000 250309 800000 2000000 3249073 4000000 (vPh3 200000 250309 ph3_t1) = true := by decide +kernel
def ph3_t2 : Tr4 := .y .d (.x (.y .d .d) (.y .d (.y .d (.x .d (.y (.x .d (.y .d .d)) (.x (.y .d (.x .d (.y .d (.x .d .b)))) (.y (.x (.y .d (.x .d .b)) (.y .b .b)) (.x .b (.y .b .b)))))))))
theorem ph3_c2 : chk 200000 250309 1400000 4000000 3749691 4000000 (vPh3 200000 250309 ph3_t2) = true := by decide +kernel
def ph3_t3 : Tr4 := .y .d .d
theorem ph3_c3 : chk 200000 250309 1800000 4000000 7249073 8000000 (vPh3 200000 250309 ph3_t3) = true := by decide +kernel
def ph3_t4 : Tr4 := .x .d (.y .d (.y .d .d))
theorem ph3_c4 : chk 200000 250309 3400000 8000000 15249073 16000000 (vPh3 200000 250309 ph3_t4) = true := by decide +kernel
def ph3_t5 : Tr4 := .x (.y .d (.x .d (.y (.x .d (.y .d (.x .d .b))) (.x (.y .d (.x .d .b)) (.y .b .b))))) (.y (.x (.y .d (.x .d (.y .d .b))) (.y (.x (.y .d (.x .d .b)) (.y (.x .d .b) .b)) (.x .b (.y .b .b)))) (.x (.y (.x (.y (.x .d .b) .b) (.y .b .b)) (.x (.y .b .b) (.y .b .b))) (.y (.x (.y .b .b) .b) (.x .b .b))))
theorem ph3_c5 : chk 200000 250309 3400000 8000000 31249073 32000000 (vPh3 200000 250309 ph3_t5) = true := by decide +kernel
def ph3_t6 : Tr4 := .y (.x (.y (.x .d (.y (.x .d .b) .b)) (.x (.y (.x .d .b) .b) (.y .b .b))) (.y (.x (.y .b .b) (.y .b (.x .b .b))) (.x (.y (.x .b .b) (.x .b .b)) (.y (.x .b .b) .b)))) (.x (.y (.x (.y .b .b) (.y (.x .b .b) .b)) (.x (.x .b .b) .b)) (.y (.x .b (.y .b .b)) (.x .b .b)))
theorem ph3_c6 : chk 200000 250309 6600000 16000000 31749691 32000000 (vPh3 200000 250309 ph3_t6) = true := by decide +kernel
def ph3_t7 : Tr4 := .y (.x (.y (.x (.y (.x .b .b) .b) (.y .b .b)) (.x (.y .b .b) .b)) (.y (.x .b .b) .b)) (.x .b .b)
theorem ph3_c7 : chk 200000 250309 7000000 16000000 31749691 32000000 (vPh3 200000 250309 ph3_t7) = true := by decide +kernel
def ph3_t8 : Tr4 := .y (.x .d (.y .d (.x .d (.y .d (.x .d (.y .d .b)))))) (.x (.y (.x .d (.y .d (.x .d (.y .d (.x .d .b))))) (.x (.y .d (.x (.y .d .b) .b)) (.y (.x (.y .d .b) .b) (.x .b .b)))) (.y (.x (.y (.x .d (.y .d .b)) (.x (.y (.x .d .b) .b) .b)) (.y (.x .b .b) (.x .b .b))) (.x (.y (.x .b .b) .b) (.y .b .b))))
theorem ph3_c8 : chk 200000 250309 3800000 8000000 15249073 16000000 (vPh3 200000 250309 ph3_t8) = true := by decide +kernel

end If97.Tm
