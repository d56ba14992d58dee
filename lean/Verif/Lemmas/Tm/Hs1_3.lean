import Verif.Lemmas.Tm.Comp.Region1

/-! p(h, s) and T(h, s) in region 1, part 3 (generated subdivisions, checked in the kernel) -/

namespace If97.Tm
set_option maxRecDepth 100000

theorem hs1_17 : verify (leafHs1 P12 15 1000 25 1000 46279551 10831) 46279551 10831 (.x (.x (.x (.x (.y (.x .l .l) (.y (.x .l .l) (.x .l .l))) (.y (.x .l .l) (.x .l .l))) (.x (.x .l .l) .l)) (.x (.x .l .l) (.x .l .l))) (.x (.x .l .l) (.x .l .l)))
    53720449 1000000 2450327 1000000 = true := by decide +kernel

end If97.Tm
