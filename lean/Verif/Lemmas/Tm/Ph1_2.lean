import Verif.Lemmas.Tm.Comp.Region1

/-! T(p, h) in region 1, part 2 (generated subdivisions, checked in the kernel) -/

namespace If97.Tm
set_option maxRecDepth 100000

theorem ph1_20 : verify (leafPh1 P12 25 1000 45395867 10278) 45395867 10278 (.x (.x (.x (.x (.x .l .l) .l) (.x .l .l)) (.x .l .l)) (.x .l (.x .l .l)))
    54604133 1000000 2387024 1000000 = true := by decide +kernel
theorem ph1_21 : verify (leafPh1 P12 25 1000 45068121 5073) 45068121 5073 (.x (.x (.x (.x (.x .l .l) .l) (.x .l .l)) (.x .l .l)) (.x .l (.x .l .l)))
    54931879 1000000 2371674 1000000 = true := by decide +kernel
theorem ph1_22 : verify (leafPh1 P12 25 1000 44897639 5031) 44897639 5031 (.x (.x (.x (.x (.x .l .l) .l) (.x .l .l)) (.x .l .l)) (.x .l (.x (.x .l .l) .l)))
    55102361 1000000 2361572 1000000 = true := by decide +kernel
theorem ph1_23 : verify (leafPh1 P12 25 1000 44722629 4988) 44722629 4988 (.x (.x (.x (.x (.x .l .l) .l) (.x .l .l)) (.x (.x .l .l) .l)) (.x .l (.x (.x .l .l) .l)))
    55277371 1000000 2351555 1000000 = true := by decide +kernel
theorem ph1_24 : verify (leafPh1 P12 25 1000 44542994 4946) 44542994 4946 (.x (.x (.x (.x (.x .l .l) .l) (.x .l .l)) (.x (.x .l .l) .l)) (.x .l (.x (.x .l .l) .l)))
    55457006 1000000 2341623 1000000 = true := by decide +kernel
theorem ph1_25 : verify (leafPh1 P12 25 1000 44358637 2948) 44358637 2948 (.x (.x (.x (.x (.x .l .l) .l) (.x .l .l)) (.x (.x .l .l) .l)) (.x .l (.x (.x .l .l) .l)))
    55641363 1000000 2333730 1000000 = true := by decide +kernel
theorem ph1_26 : verify (leafPh1 P12 25 1000 44245713 2933) 44245713 2933 (.x (.x (.x (.x (.x .l .l) .l) (.x .l .l)) (.x (.x .l .l) .l)) (.x .l (.x (.x .l .l) (.x .l .l))))
    55754287 1000000 2327851 1000000 = true := by decide +kernel
theorem ph1_27 : verify (leafPh1 P12 25 1000 44131030 5821) 44131030 5821 (.x (.x (.x (.x (.x .l .l) .l) (.x .l .l)) (.x (.x .l .l) .l)) (.x (.x .l .l) (.x (.x .l .l) (.x .l .l))))
    55868970 1000000 2319098 1000000 = true := by decide +kernel
theorem ph1_28 : verify (leafPh1 P12 25 1000 43896292 5763) 43896292 5763 (.x (.x (.x (.x (.x .l .l) .l) (.x .l .l)) (.x (.x .l .l) .l)) (.x (.x .l .l) (.x (.x .l .l) (.x .l .l))))
    56103708 1000000 2307515 1000000 = true := by decide +kernel

end If97.Tm
