import Verif.Lemmas.Tm.Comp.Region1

/-! T(p, h) in region 1, part 5 (generated subdivisions, checked in the kernel) -/

namespace If97.Tm
set_option maxRecDepth 100000

theorem ph1_44 : verify (leafPh1 P12 25 1000 41986625 899) 41986625 899 (.x (.x (.x (.x (.x (.x (.x .l .l) (.x .l .l)) .l) (.x .l .l)) (.x (.x .l .l) .l)) (.x (.x .l .l) (.x .l .l))) (.x (.x .l .l) (.x .l .l)))
    58013375 1000000 2232244 1000000 = true := by decide +kernel
theorem ph1_45 : verify (leafPh1 P12 25 1000 41937059 898) 41937059 898 (.x (.x (.x (.x (.x (.x (.x .l .l) .l) .l) (.x .l .l)) (.x (.x .l .l) .l)) (.x (.x .l .l) (.x .l .l))) (.x (.x .l .l) (.x .l .l)))
    58062941 1000000 2230448 1000000 = true := by decide +kernel
theorem ph1_46 : verify (leafPh1 P12 25 1000 41887239 897) 41887239 897 (.x (.x (.x (.x (.x (.x (.x .l .l) .l) .l) (.x .l .l)) (.x (.x .l .l) .l)) (.x (.x .l .l) (.x .l .l))) (.x (.x (.x .l .l) .l) (.x .l .l)))
    58112761 1000000 2228655 1000000 = true := by decide +kernel
theorem ph1_47 : verify (leafPh1 P12 25 1000 41837165 895) 41837165 895 (.x (.x (.x (.x (.x (.x (.x .l .l) .l) .l) (.x .l .l)) (.x (.x .l .l) .l)) (.x (.x .l .l) (.x .l .l))) (.x (.x (.x .l .l) .l) (.x .l .l)))
    58162835 1000000 2226864 1000000 = true := by decide +kernel
theorem ph1_48 : verify (leafPh1 P12 25 1000 41786834 447) 41786834 447 (.x (.x (.x (.x (.x (.x (.x .l .l) .l) .l) (.x .l .l)) (.x (.x .l .l) .l)) (.x (.x .l .l) (.x .l .l))) (.x (.x (.x .l .l) .l) (.x .l .l)))
    58213166 1000000 2225523 1000000 = true := by decide +kernel
theorem ph1_49 : verify (leafPh1 P12 25 1000 41761572 447) 41761572 447 (.x (.x (.x (.x (.x (.x .l .l) .l) (.x .l .l)) (.x (.x .l .l) (.x .l .l))) (.x (.x .l .l) (.x .l .l))) (.x (.x (.x .l .l) .l) (.x .l .l)))
    58238428 1000000 2224630 1000000 = true := by decide +kernel

end If97.Tm
