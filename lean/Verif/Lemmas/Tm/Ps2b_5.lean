import Verif.Lemmas.Tm.Comp.Scales
import Verif.Lemmas.Tm.Comp.Region2s

/-! T(p, s) in region 2b, part 5 (generated subdivisions, checked in the kernel) -/

namespace If97.Tm
set_option maxRecDepth 100000

def ps2b_t25 : Tr4 := .x (.y (.x .a .a) (.x .a .a)) (.x (.y .a (.x .a .a)) (.x (.y .a .a) (.y (.y (.x .a .a) (.x .a .a)) (.x .a (.y .a .a)))))
theorem ps2b_c25 : chk 462278 1 5862278 2000000 1 4 (vPs2b sk11 q0 qs4 lcU5 462278 1 ps2b_t25) = true := by decide +kernel
def ps2b_t26 : Tr4 := .x (.y (.x (.y .a .a) (.x .a .a)) (.x (.y .a (.y .a (.x .a .a))) (.y .a .a))) (.x (.y (.x .a .a) (.y .a (.y .a .a))) (.y (.x (.x .a .a) .a) (.y (.x .a .a) (.x .a .a))))
theorem ps2b_c26 : chk 462278 1 5862278 2000000 3 4 (vPs2b sk11 q0 qs4 lcU5 462278 1 ps2b_t26) = true := by decide +kernel
def ps2b_t27 : Tr4 := .x (.y (.x (.y (.y (.x (.y .a .d) (.y .a .d)) .d) .d) (.x (.x (.y (.y .a .d) .d) (.y .a .d)) (.y (.y .a .d) .d))) .d) (.y (.y (.y (.x (.y (.x (.x .a (.y .a .d)) (.y .a .d)) .d) (.x (.y (.y .a .d) .d) (.y (.x .a .a) .d))) .d) .d) .d)
theorem ps2b_c27 : chk 462278 1 5862278 2000000 1 4 (vPs2b sk11 qs4 q17 lcU5 462278 1 ps2b_t27) = true := by decide +kernel
def ps2b_t28 : Tr4 := .x (.y (.x .d .d) (.y (.x .d .d) (.y (.x .d .d) (.x .d .d)))) (.y (.x .d .d) (.y (.x .d .d) (.x .d .d)))
theorem ps2b_c28 : chk 462278 1 5862278 2000000 3 4 (vPs2b sk11 qs4 q17 lcU5 462278 1 ps2b_t28) = true := by decide +kernel

end If97.Tm
