import Verif.Lemmas.Tm.Comp.Region1

/-! p(h, s) and T(h, s) in region 1, part 11 (generated subdivisions, checked in the kernel) -/

namespace If97.Tm
set_option maxRecDepth 100000

theorem hs1_42 : verify (leafHs1 P12 15 1000 25 1000 42085003 902) 42085003 902 (.x (.x (.x (.x (.x (.x (.x .l .l) (.x .l .l)) (.x .l .l)) (.x (.x .l .l) (.x .l .l))) (.x (.x (.x .l .l) (.x .l .l)) (.x .l .l))) (.x (.x (.x .l .l) (.x .l .l)) (.x (.x .l .l) .l))) (.x (.x (.x .l .l) .l) (.x .l .l)))
    57914997 1000000 2235845 1000000 = true := by decide +kernel
theorem hs1_43 : verify (leafHs1 P12 15 1000 25 1000 42035939 901) 42035939 901 (.x (.x (.x (.x (.x (.x (.x .l .l) (.x .l .l)) (.x .l .l)) (.x (.x .l .l) (.x .l .l))) (.x (.x (.x .l .l) (.x .l .l)) (.x .l .l))) (.x (.x (.x .l .l) (.x .l .l)) (.x (.x .l .l) .l))) (.x (.x (.x .l .l) .l) (.x .l .l)))
    57964061 1000000 2234043 1000000 = true := by decide +kernel
theorem hs1_44 : verify (leafHs1 P12 15 1000 25 1000 41986625 899) 41986625 899 (.x (.x (.x (.x (.x (.x (.x .l .l) (.x .l .l)) (.x .l .l)) (.x (.x .l .l) (.x .l .l))) (.x (.x (.x .l .l) (.x .l .l)) (.x .l .l))) (.x (.x (.x .l .l) (.x .l .l)) (.x (.x .l .l) .l))) (.x (.x (.x .l .l) .l) (.x .l .l)))
    58013375 1000000 2232244 1000000 = true := by decide +kernel

end If97.Tm
