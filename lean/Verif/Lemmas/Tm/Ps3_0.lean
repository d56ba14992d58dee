import Verif.Lemmas.Tm.Comp.Region3

/-! T and v from (p, s) in region 3, above 373.946 degC, part 0 (generated subdivisions, checked in the kernel) -/

namespace If97.Tm
set_option maxRecDepth 100000

def ps3_t0 : Tr4 := .x (.y .d (.x .d .d)) (.y .d (.y .d (.x .d .d)))
theorem ps3_c0 : chk 300000 250309 300000 2000000 1749691 2000000 (vPs3 lcR1 300000 250309 ps3_t0) = true := by decide +kernel
def ps3_t1 : Tr4 := .y .d .d
theorem ps3_c1 : chk 200000 250309 800000 2000000 3249073 4000000 (vPs3 lcR1 200000 250309 ps3_t1) = true := by decide +kernel
def ps3_t2 : Tr4 := .y .d (.x (.y .d .d) (.y .d (.x (.y .d .d) (.y .d (.x (.y .d .b) (.y (.y .d .d) .b))))))
theorem ps3_c2 : chk 200000 250309 1400000 4000000 3749691 4000000 (vPs3 lcR1 200000 250309 ps3_t2) = true := by decide +kernel
def ps3_t3 : Tr4 := .y (.y .d .d) (.x (.y (.x .d (.y .d (.y .d .d))) (.y (.x (.y .d (.x .d (.y (.x .d .b) .b))) (.y (.x (.y .d (.x .d .b)) (.y (.x (.y .d .b) .b) .b)) .b)) (.x (.y .b .b) (.y .b .b)))) (.y (.y (.x .d (.y .d (.x .d (.y .d (.x .d (.y .d .b)))))) (.x (.y (.x .d (.y .d (.x .d (.y .d .b)))) (.x (.y .d .b) .b)) (.y (.x (.y (.x .d (.y .d .b)) .b) (.y .b .b)) .b))) (.y (.x (.y .b .b) (.y .b .b)) (.y (.x .b .b) (.x .b .b)))))
theorem ps3_c3 : chk 200000 250309 1800000 4000000 3749691 4000000 (vPs3 lcR1 200000 250309 ps3_t3) = true := by decide +kernel
def ps3_t4 : Tr4 := .x (.y .d .d) (.y .d (.x (.y .d .d) (.y .d (.y .d (.x .d (.y .d (.x .d .b)))))))
theorem ps3_c4 : chk 300000 250309 1300000 2000000 3249073 4000000 (vPs3 lcR2 300000 250309 ps3_t4) = true := by decide +kernel
def ps3_t5 : Tr4 := .x (.y .d (.y .d (.x .d (.y (.x .d (.y .d .d)) (.x (.y .d (.x .d .b)) (.y (.x (.y .d .b) .b) .b)))))) (.y (.y .d .d) (.y (.x (.y .d (.x .d (.y .d (.x .d .b)))) (.y (.x .d (.y (.x .d (.y .d .b)) .b)) (.x (.y (.x (.y .d .b) .b) .b) (.y .b .b)))) (.x (.y (.x (.y (.x .d (.y .d .b)) .b) (.y .b .b)) (.x (.y .b .b) .b)) (.y (.x .b .b) .b))))
theorem ps3_c5 : chk 300000 250309 2300000 4000000 7249073 8000000 (vPs3 lcR2 300000 250309 ps3_t5) = true := by decide +kernel
def ps3_t6 : Tr4 := .y (.y (.x (.y (.x .d (.y (.x .d (.y .d .b)) (.x (.y .d .b) .b))) (.x (.y (.x (.x .d .d) .b) .b) (.y .b .b))) (.y (.x (.y .b .b) .b) (.x .b .b))) (.x (.y (.x .b .b) .b) (.y .b .b))) (.y (.x (.y .b .b) (.y .b .b)) (.x (.y .b .b) (.y .b .b)))
theorem ps3_c6 : chk 300000 250309 4300000 8000000 7749691 8000000 (vPs3 lcR2 300000 250309 ps3_t6) = true := by decide +kernel
def ps3_t7 : Tr4 := .y (.y (.x (.y (.x .b .b) .b) .b) (.x (.y .b .b) (.y .b .b))) (.y (.y .b .b) (.y (.x .b .b) (.x .b .b)))
theorem ps3_c7 : chk 300000 250309 4900000 8000000 7749691 8000000 (vPs3 lcR2 300000 250309 ps3_t7) = true := by decide +kernel

end If97.Tm
