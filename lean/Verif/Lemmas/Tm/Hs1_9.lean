import Verif.Lemmas.Tm.Comp.Region1

/-! p(h, s) and T(h, s) in region 1, part 9 (generated subdivisions, checked in the kernel) -/

namespace If97.Tm
set_option maxRecDepth 100000

theorem hs1_36 : verify (leafHs1 P12 15 1000 25 1000 42608551 1835) 42608551 1835 (.x (.x (.x (.x (.x (.x (.x .l .l) .l) (.x .l .l)) (.x (.x .l .l) (.x .l .l))) (.x (.x (.x .l .l) .l) (.x .l .l))) (.x (.x (.x .l .l) (.x .l .l)) (.x (.x .l .l) .l))) (.x (.x (.x .l .l) .l) (.x .l .l)))
    57391449 1000000 2254943 1000000 = true := by decide +kernel
theorem hs1_37 : verify (leafHs1 P12 15 1000 25 1000 42515524 1829) 42515524 1829 (.x (.x (.x (.x (.x (.x (.x .l .l) .l) (.x .l .l)) (.x (.x .l .l) (.x .l .l))) (.x (.x (.x .l .l) .l) (.x .l .l))) (.x (.x (.x .l .l) (.x .l .l)) (.x (.x .l .l) .l))) (.x (.x (.x .l .l) .l) (.x .l .l)))
    57484476 1000000 2251281 1000000 = true := by decide +kernel
theorem hs1_38 : verify (leafHs1 P12 15 1000 25 1000 42421546 1823) 42421546 1823 (.x (.x (.x (.x (.x (.x (.x (.x .l .l) .l) (.x .l .l)) (.x .l .l)) (.x (.x .l .l) (.x .l .l))) (.x (.x (.x .l .l) .l) (.x .l .l))) (.x (.x (.x .l .l) (.x .l .l)) (.x (.x .l .l) .l))) (.x (.x (.x .l .l) .l) (.x .l .l)))
    57578454 1000000 2247630 1000000 = true := by decide +kernel

end If97.Tm
