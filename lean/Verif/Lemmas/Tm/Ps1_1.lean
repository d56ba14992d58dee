import Verif.Lemmas.Tm.Comp.Region1

/-! T(p, s) in region 1, part 1 (generated subdivisions, checked in the kernel) -/

namespace If97.Tm
set_option maxRecDepth 100000

theorem ps1_25 : verify (leafPs1 P12 25 1000 44358637 2948) 44358637 2948 (.x (.x (.x (.x .l .l) .l) (.x .l .l)) .l)
    55641363 1000000 2333730 1000000 = true := by decide +kernel
theorem ps1_26 : verify (leafPs1 P12 25 1000 44245713 2933) 44245713 2933 (.x (.x (.x (.x .l .l) (.x .l .l)) (.x .l .l)) .l)
    55754287 1000000 2327851 1000000 = true := by decide +kernel
theorem ps1_27 : verify (leafPs1 P12 25 1000 44131030 5821) 44131030 5821 (.x (.x (.x (.x (.x .l .l) .l) (.x .l .l)) (.x .l .l)) .l)
    55868970 1000000 2319098 1000000 = true := by decide +kernel
theorem ps1_28 : verify (leafPs1 P12 25 1000 43896292 5763) 43896292 5763 (.x (.x (.x (.x (.x .l .l) .l) (.x .l .l)) (.x .l .l)) .l)
    56103708 1000000 2307515 1000000 = true := by decide +kernel
theorem ps1_29 : verify (leafPs1 P12 25 1000 43654231 3811) 43654231 3811 (.x (.x (.x (.x (.x .l .l) .l) (.x .l .l)) (.x .l .l)) .l)
    56345769 1000000 2297943 1000000 = true := by decide +kernel
theorem ps1_30 : verify (leafPs1 P12 25 1000 43488690 3786) 43488690 3786 (.x (.x (.x (.x (.x .l .l) .l) (.x .l .l)) (.x .l .l)) (.x .l .l))
    56511310 1000000 2290348 1000000 = true := by decide +kernel
theorem ps1_31 : verify (leafPs1 P12 25 1000 43319742 3761) 43319742 3761 (.x (.x (.x (.x (.x .l .l) .l) (.x .l .l)) (.x .l .l)) (.x .l .l))
    56680258 1000000 2282803 1000000 = true := by decide +kernel
theorem ps1_32 : verify (leafPs1 P12 25 1000 43147323 3736) 43147323 3736 (.x (.x (.x (.x (.x .l .l) .l) (.x .l .l)) (.x .l .l)) (.x .l .l))
    56852677 1000000 2275308 1000000 = true := by decide +kernel
theorem ps1_33 : verify (leafPs1 P12 25 1000 42971365 3712) 42971365 3712 (.x (.x (.x (.x (.x (.x .l .l) .l) .l) (.x .l .l)) (.x .l .l)) (.x .l .l))
    57028635 1000000 2267862 1000000 = true := by decide +kernel
theorem ps1_34 : verify (leafPs1 P12 25 1000 42791799 1847) 42791799 1847 (.x (.x (.x (.x (.x (.x .l .l) .l) .l) (.x .l .l)) (.x .l .l)) (.x .l .l))
    57208201 1000000 2262305 1000000 = true := by decide +kernel
theorem ps1_35 : verify (leafPs1 P12 25 1000 42700640 1841) 42700640 1841 (.x (.x (.x (.x (.x (.x .l .l) .l) .l) (.x .l .l)) (.x .l .l)) (.x .l .l))
    57299360 1000000 2258618 1000000 = true := by decide +kernel
theorem ps1_36 : verify (leafPs1 P12 25 1000 42608551 1835) 42608551 1835 (.x (.x (.x (.x (.x (.x .l .l) .l) .l) (.x .l .l)) (.x (.x .l .l) .l)) (.x .l (.x .l .l)))
    57391449 1000000 2254943 1000000 = true := by decide +kernel

end If97.Tm
