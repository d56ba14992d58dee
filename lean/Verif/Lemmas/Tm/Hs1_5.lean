import Verif.Lemmas.Tm.Comp.Region1

/-! p(h, s) and T(h, s) in region 1, part 5 (generated subdivisions, checked in the kernel) -/

namespace If97.Tm
set_option maxRecDepth 100000

theorem hs1_23 : verify (leafHs1 P12 15 1000 25 1000 44722629 4988) 44722629 4988 (.x (.x (.x (.x (.x (.x .l .l) (.x .l .l)) (.x .l .l)) (.x (.x .l .l) (.x .l .l))) (.x (.x (.y (.x .l .l) (.x .l .l)) .l) (.x .l .l))) (.x (.x .l .l) (.x (.x .l .l) .l)))
    55277371 1000000 2351555 1000000 = true := by decide +kernel
theorem hs1_24 : verify (leafHs1 P12 15 1000 25 1000 44542994 4946) 44542994 4946 (.x (.x (.x (.x (.x (.y (.x .l .l) (.x .l .l)) (.x .l .l)) (.x .l .l)) (.x (.x .l .l) (.x .l .l))) (.x (.x (.y (.x .l .l) (.x .l .l)) (.x .l .l)) (.x .l .l))) (.x (.x .l .l) (.x (.x .l .l) .l)))
    55457006 1000000 2341623 1000000 = true := by decide +kernel
theorem hs1_25 : verify (leafHs1 P12 15 1000 25 1000 44358637 2948) 44358637 2948 (.x (.x (.x (.x (.x (.x .l .l) (.x .l .l)) (.x .l .l)) (.x (.x .l .l) (.x .l .l))) (.x (.x (.x .l .l) (.x .l .l)) (.x .l .l))) (.x (.x .l .l) (.x (.x .l .l) .l)))
    55641363 1000000 2333730 1000000 = true := by decide +kernel

end If97.Tm
