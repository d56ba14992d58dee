import Verif.Lemmas.Tm.Comp.Region1

/-! T(p, s) in region 1, part 2 (generated subdivisions, checked in the kernel) -/

namespace If97.Tm
set_option maxRecDepth 100000

theorem ps1_37 : verify (leafPs1 P12 25 1000 42515524 1829) 42515524 1829 (.x (.x (.x (.x (.x (.x .l .l) .l) .l) (.x .l .l)) (.x (.x .l .l) .l)) (.x .l (.x .l .l)))
    57484476 1000000 2251281 1000000 = true := by decide +kernel
theorem ps1_38 : verify (leafPs1 P12 25 1000 42421546 1823) 42421546 1823 (.x (.x (.x (.x (.x (.x .l .l) .l) .l) (.x .l .l)) (.x (.x .l .l) .l)) (.x .l (.x .l .l)))
    57578454 1000000 2247630 1000000 = true := by decide +kernel
theorem ps1_39 : verify (leafPs1 P12 25 1000 42326610 1817) 42326610 1817 (.x (.x (.x (.x (.x (.x .l .l) .l) .l) (.x .l .l)) (.x (.x .l .l) .l)) (.x (.x .l .l) (.x .l .l)))
    57673390 1000000 2243991 1000000 = true := by decide +kernel
theorem ps1_40 : verify (leafPs1 P12 25 1000 42230704 1812) 42230704 1812 (.x (.x (.x (.x (.x (.x .l .l) (.x .l .l)) .l) (.x .l .l)) (.x (.x .l .l) .l)) (.x (.x .l .l) (.x .l .l)))
    57769296 1000000 2240364 1000000 = true := by decide +kernel
theorem ps1_41 : verify (leafPs1 P12 25 1000 42133817 904) 42133817 904 (.x (.x (.x (.x (.x (.x .l (.x .l .l)) (.x .l .l)) .l) (.x .l .l)) (.x (.x .l .l) .l)) (.x (.x .l .l) (.x .l .l)))
    57866183 1000000 2237650 1000000 = true := by decide +kernel
theorem ps1_42 : verify (leafPs1 P12 25 1000 42085003 902) 42085003 902 (.x (.x (.x (.x (.x (.x .l (.x .l .l)) (.x .l .l)) .l) (.x .l .l)) (.x (.x .l .l) .l)) (.x (.x .l .l) (.x .l .l)))
    57914997 1000000 2235845 1000000 = true := by decide +kernel
theorem ps1_43 : verify (leafPs1 P12 25 1000 42035939 901) 42035939 901 (.x (.x (.x (.x (.x (.x .l (.x .l .l)) (.x .l .l)) .l) (.x .l .l)) (.x (.x .l .l) .l)) (.x (.x .l .l) (.x .l .l)))
    57964061 1000000 2234043 1000000 = true := by decide +kernel
theorem ps1_44 : verify (leafPs1 P12 25 1000 41986625 899) 41986625 899 (.x (.x (.x (.x (.x (.x .l (.x .l .l)) (.x .l .l)) .l) (.x .l .l)) (.x (.x .l .l) .l)) (.x (.x .l .l) (.x .l .l)))
    58013375 1000000 2232244 1000000 = true := by decide +kernel

end If97.Tm
