import Verif.Lemmas.Tm.Comp.Region3

/-! T and v from (p, s) in region 3, above 373.946 degC, part 10 (generated subdivisions, checked in the kernel) -/

namespace If97.Tm
set_option maxRecDepth 100000

def ps3_t50 : Tr4 := .x .a (.y (.x (.y (.x (.y (.x (.y .d (.x .a .d)) .d) (.x .a (.y .d (.x .a (.y .d .a))))) .d) (.x .a (.y (.x (.y (.x .a .d) .a) .d) (.x .a (.y (.x .a .d) .a))))) (.y .d (.x (.y .d (.x (.y .d (.x (.y .d .a) .d)) .d)) .d))) (.x .a (.y (.x (.y (.x (.y (.x .a (.y .d .a)) .a) (.y .d (.x (.y (.x .a .d) .a) .d))) .a) (.y .d (.x (.y (.x (.y .d (.x .a .d)) .d) (.x .a (.y .d (.x .a .d)))) .d))) (.x .a (.y (.x .a (.y (.x (.y .d .a) .d) (.x .a (.y (.x .a .d) .a)))) .a)))))
theorem ps3_c50 : chk 800000 250309 61600000 32000000 57742275 64000000 (vPs3 lcR5 800000 250309 ps3_t50) = true := by decide +kernel
def ps3_t51 : Tr4 := .y .d (.x (.y .d (.x (.y .d (.x (.y .d (.x (.y (.x (.y (.x .a .d) .a) (.y .d (.x (.y .d .a) .d))) .a) (.y .d (.x (.y .d (.x .a .d)) .d)))) .d)) .d)) .d)
theorem ps3_c51 : chk 800000 250309 63200000 32000000 28745983 32000000 (vPs3 lcR5 800000 250309 ps3_t51) = true := by decide +kernel
def ps3_t52 : Tr4 := .d
theorem ps3_c52 : chk 800000 250309 32800000 16000000 14247837 16000000 (vPs3 lcR5 800000 250309 ps3_t52) = true := by decide +kernel
def ps3_t53 : Tr4 := .y .a .a
theorem ps3_c53 : chk 800000 250309 61600000 32000000 29246601 32000000 (vPs3 lcR5 800000 250309 ps3_t53) = true := by decide +kernel
def ps3_t54 : Tr4 := .y (.x (.y (.x .a (.y (.x .a (.y .d (.x .a (.y .d .a)))) .a)) .a) (.y (.x (.y .d (.x (.y (.x (.y .d .a) .d) .a) .d)) .d) (.x (.y (.x .a (.y (.x .a .d) .a)) .a) (.y (.x (.y .d (.x (.y .d .a) .d)) .d) (.x (.y (.x .a (.y .d .a)) .a) (.y .d (.x .a .d))))))) .a
theorem ps3_c54 : chk 800000 250309 250400000 128000000 116235477 128000000 (vPs3 lcR5 800000 250309 ps3_t54) = true := by decide +kernel
def ps3_t55 : Tr4 := .y .d (.x (.y (.x (.y (.x (.y .d (.x .a (.y .d .a))) .d) (.x .a (.y (.x (.y .d .a) .d) .a))) .d) (.x .a (.y (.x (.y (.x .a .d) .a) (.y .d (.x (.y .d .a) .d))) (.x .a (.y (.x .a (.y .d .a)) .a))))) (.y .d (.x (.y .d (.x (.y .d (.x .a .d)) .d)) .d)))
theorem ps3_c55 : chk 800000 250309 252000000 128000000 116235477 128000000 (vPs3 lcR5 800000 250309 ps3_t55) = true := by decide +kernel
def ps3_t56 : Tr4 := .x .a (.y (.x .a (.y (.x (.y (.x .a (.y .d (.x .a (.y .d .a)))) .a) (.y .d (.x (.y (.x (.y .d .a) .d) .a) .d))) (.x .a (.y (.x .a (.y (.x .a .d) .a)) .a)))) .a)
theorem ps3_c56 : chk 800000 250309 125600000 64000000 116736095 128000000 (vPs3 lcR5 800000 250309 ps3_t56) = true := by decide +kernel

end If97.Tm
