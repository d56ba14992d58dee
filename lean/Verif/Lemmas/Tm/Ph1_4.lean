import Verif.Lemmas.Tm.Comp.Region1

/-! T(p, h) in region 1, part 4 (generated subdivisions, checked in the kernel) -/

namespace If97.Tm
set_option maxRecDepth 100000

theorem ph1_38 : verify (leafPh1 P12 25 1000 42421546 1823) 42421546 1823 (.x (.x (.x (.x (.x (.x (.x .l .l) (.x .l .l)) .l) (.x .l .l)) (.x .l .l)) (.x (.x .l .l) .l)) (.x (.x .l .l) (.x .l .l)))
    57578454 1000000 2247630 1000000 = true := by decide +kernel
theorem ph1_39 : verify (leafPh1 P12 25 1000 42326610 1817) 42326610 1817 (.x (.x (.x (.x (.x (.x (.x .l (.x .l .l)) (.x .l .l)) .l) (.x .l .l)) (.x .l .l)) (.x (.x .l .l) .l)) (.x (.x .l .l) (.x .l .l)))
    57673390 1000000 2243991 1000000 = true := by decide +kernel
theorem ph1_40 : verify (leafPh1 P12 25 1000 42230704 1812) 42230704 1812 (.x (.x (.x (.x (.x (.x (.x (.x .l .l) (.x .l .l)) (.x .l .l)) .l) (.x .l .l)) (.x .l .l)) (.x (.x .l .l) (.x .l .l))) (.x (.x .l .l) (.x .l .l)))
    57769296 1000000 2240364 1000000 = true := by decide +kernel
theorem ph1_41 : verify (leafPh1 P12 25 1000 42133817 904) 42133817 904 (.x (.x (.x (.x (.x (.x (.x .l (.x .l .l)) (.x .l .l)) .l) (.x .l .l)) (.x .l .l)) (.x (.x .l .l) (.x .l .l))) (.x (.x .l .l) (.x .l .l)))
    57866183 1000000 2237650 1000000 = true := by decide +kernel
theorem ph1_42 : verify (leafPh1 P12 25 1000 42085003 902) 42085003 902 (.x (.x (.x (.x (.x (.x (.x .l (.x .l .l)) (.x .l .l)) .l) (.x .l .l)) (.x .l .l)) (.x (.x .l .l) (.x .l .l))) (.x (.x .l .l) (.x .l .l)))
    57914997 1000000 2235845 1000000 = true := by decide +kernel
theorem ph1_43 : verify (leafPh1 P12 25 1000 42035939 901) 42035939 901 (.x (.x (.x (.x (.x (.x (.x .l .l) (.x .l .l)) .l) (.x .l .l)) (.x .l .l)) (.x (.x .l .l) (.x .l .l))) (.x (.x .l .l) (.x .l .l)))
    57964061 1000000 2234043 1000000 = true := by decide +kernel

end If97.Tm
