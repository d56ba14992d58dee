import Verif.Lemmas.Tm.Comp.Region1

/-! p(h, s) and T(h, s) in region 1, part 8 (generated subdivisions, checked in the kernel) -/

namespace If97.Tm
set_option maxRecDepth 100000

theorem hs1_33 : verify (leafHs1 P12 15 1000 25 1000 42971365 3712) 42971365 3712 (.x (.x (.x (.x (.x (.x .l .l) (.x .l .l)) (.x (.x .l .l) (.x .l .l))) (.x (.x (.x .l .l) .l) (.x .l .l))) (.x (.x (.x .l .l) (.x .l .l)) (.x (.x .l .l) .l))) (.x (.x (.x .l .l) .l) (.x .l .l)))
    57028635 1000000 2267862 1000000 = true := by decide +kernel
theorem hs1_34 : verify (leafHs1 P12 15 1000 25 1000 42791799 1847) 42791799 1847 (.x (.x (.x (.x (.x (.x .l .l) (.x .l .l)) (.x (.x .l .l) (.x .l .l))) (.x (.x .l .l) (.x .l .l))) (.x (.x (.x .l .l) (.x .l .l)) (.x (.x .l .l) .l))) (.x (.x (.x .l .l) .l) (.x .l .l)))
    57208201 1000000 2262305 1000000 = true := by decide +kernel
theorem hs1_35 : verify (leafHs1 P12 15 1000 25 1000 42700640 1841) 42700640 1841 (.x (.x (.x (.x (.x (.x .l .l) (.x .l .l)) (.x (.x .l .l) (.x .l .l))) (.x (.x (.x .l .l) .l) (.x .l .l))) (.x (.x (.x .l .l) (.x .l .l)) (.x (.x .l .l) .l))) (.x (.x (.x .l .l) .l) (.x .l .l)))
    57299360 1000000 2258618 1000000 = true := by decide +kernel

end If97.Tm
