import Verif.Lemmas.Tm.Comp.Region3

/-! T and v from (p, h) in region 3, above 373.946 degC, part 7 (generated subdivisions, checked in the kernel) -/

namespace If97.Tm
set_option maxRecDepth 100000

def ph3_t37 : Tr4 := .x (.y (.x (.y (.x .a .a) .a) (.y .a .a)) (.y (.x (.y .a .a) (.y .a .a)) (.x (.y .a (.x (.y .a .a) .a)) (.y .a (.x .a .a))))) (.y (.y .a .a) (.y (.x (.x .a .a) (.y .a .a)) (.x (.y .a .a) (.y (.x .a .a) (.x .a (.y .a .a))))))
theorem ph3_c37 : chk 500000 250309 6300000 4000000 7749691 8000000 (vPh3 500000 250309 ph3_t37) = true := by decide +kernel
def ph3_t38 : Tr4 := .x (.y .d (.x (.y (.x .d .d) (.y (.x (.y (.x (.x .c .d) .d) (.x .a (.x .d .d))) .d) (.x .a (.y .d (.x (.x .a .d) .d))))) .d)) (.x .d .d)
theorem ph3_c38 : chk 800000 250309 4200000 2000000 3249073 4000000 (vPh3 800000 250309 ph3_t38) = true := by decide +kernel
def ph3_t39 : Tr4 := .x (.y (.x .a (.y (.x .a (.y (.x .a .d) .a)) (.x .a .a))) (.y (.x .a .a) (.x .a (.x .a .a)))) (.y (.x (.y .d (.x (.y (.x (.x .a (.y .d .a)) .d) (.x .a (.y (.x .a (.y .d (.x .a .d))) .a))) (.y .d (.x (.y .d (.x (.y .d .a) .d)) .d)))) .d) (.x (.y (.y (.x .a (.y (.x (.x .a (.y .d .a)) .d) (.x .a (.y (.x .a .d) .a)))) .a) .a) (.y (.x (.y .d (.y (.x (.y .d .a) .d) (.x .a .d))) .d) (.x .a (.y .d (.x .a .d))))))
theorem ph3_c39 : chk 800000 250309 7600000 4000000 7249073 8000000 (vPh3 800000 250309 ph3_t39) = true := by decide +kernel
def ph3_t40 : Tr4 := .x (.y (.y (.x .a (.x .a .a)) (.y (.x .a .a) (.x .a .a))) (.x (.y (.x .a .a) (.x (.y (.x .a .a) (.x (.y .a .a) .a)) (.x (.y .a .a) .a))) (.y .a (.x .a .a)))) (.y (.x (.x (.y .a .a) (.y .a .a)) (.x (.y .a .a) (.y (.y .a .a) (.x .a (.y .a .a))))) (.x (.y .a (.y (.x .a .a) (.x .a .a))) (.y (.x .a .a) (.x .a .a))))
theorem ph3_c40 : chk 800000 250309 7600000 4000000 7749691 8000000 (vPh3 800000 250309 ph3_t40) = true := by decide +kernel

end If97.Tm
