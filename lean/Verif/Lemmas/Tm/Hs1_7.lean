import Verif.Lemmas.Tm.Comp.Region1

/-! p(h, s) and T(h, s) in region 1, part 7 (generated subdivisions, checked in the kernel) -/

namespace If97.Tm
set_option maxRecDepth 100000

theorem hs1_29 : verify (leafHs1 P12 15 1000 25 1000 43654231 3811) 43654231 3811 (.x (.x (.x (.x (.x (.x .l .l) (.y (.x .l .l) (.x .l .l))) (.x (.x .l .l) .l)) (.x (.x .l .l) (.x .l .l))) (.x (.x (.x .l .l) (.x .l .l)) (.x .l .l))) (.x (.x (.x .l .l) .l) (.x (.x .l .l) (.x .l .l))))
    56345769 1000000 2297943 1000000 = true := by decide +kernel
theorem hs1_30 : verify (leafHs1 P12 15 1000 25 1000 43488690 3786) 43488690 3786 (.x (.x (.x (.x (.x (.x .l .l) (.x .l .l)) (.x (.x .l .l) .l)) (.x (.x .l .l) (.x .l .l))) (.x (.x (.x .l .l) (.x .l .l)) (.x (.x .l .l) .l))) (.x (.x (.x .l .l) .l) (.x (.x .l .l) (.x .l .l))))
    56511310 1000000 2290348 1000000 = true := by decide +kernel
theorem hs1_31 : verify (leafHs1 P12 15 1000 25 1000 43319742 3761) 43319742 3761 (.x (.x (.x (.x (.x (.x .l .l) (.x .l .l)) (.x (.x .l .l) (.x .l .l))) (.x (.x .l .l) (.x .l .l))) (.x (.x (.x .l .l) (.x .l .l)) (.x (.x .l .l) .l))) (.x (.x (.x .l .l) .l) (.x (.x .l .l) .l)))
    56680258 1000000 2282803 1000000 = true := by decide +kernel
theorem hs1_32 : verify (leafHs1 P12 15 1000 25 1000 43147323 3736) 43147323 3736 (.x (.x (.x (.x (.x (.x .l .l) (.x .l .l)) (.x (.x .l .l) (.x .l .l))) (.x (.x .l .l) (.x .l .l))) (.x (.x (.x .l .l) (.x .l .l)) (.x (.x .l .l) .l))) (.x (.x (.x .l .l) .l) (.x .l .l)))
    56852677 1000000 2275308 1000000 = true := by decide +kernel

end If97.Tm
