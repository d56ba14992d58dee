import Verif.Lemmas.Tm.Comp.Region1

/-! p(h, s) and T(h, s) in region 1, part 13 (generated subdivisions, checked in the kernel) -/

namespace If97.Tm
set_option maxRecDepth 100000

theorem hs1_48 : verify (leafHs1 P12 15 1000 25 1000 41786834 447) 41786834 447 (.x (.x (.x (.x (.x (.x (.x .l .l) .l) (.x .l .l)) (.x (.x .l .l) (.x .l .l))) (.x (.x (.x .l .l) (.x .l .l)) (.x (.x .l .l) .l))) (.x (.x (.x .l .l) (.x .l .l)) (.x (.x .l .l) (.x .l .l)))) (.x (.x (.x .l .l) .l) (.x .l .l)))
    58213166 1000000 2225523 1000000 = true := by decide +kernel
theorem hs1_49 : verify (leafHs1 P12 15 1000 25 1000 41761572 447) 41761572 447 (.x (.x (.x (.x (.x (.x (.x .l .l) .l) (.x .l .l)) (.x (.x .l .l) (.x .l .l))) (.x (.x (.x .l .l) (.x .l .l)) (.x (.x .l .l) .l))) (.x (.x (.x .l .l) (.x .l .l)) (.x (.x .l .l) (.x .l .l)))) (.x (.x (.x (.x .l .l) .l) .l) (.x .l .l)))
    58238428 1000000 2224630 1000000 = true := by decide +kernel

end If97.Tm
