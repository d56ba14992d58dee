import Verif.Lemmas.Tm.Comp.Region1

/-! p(h, s) and T(h, s) in region 1, part 10 (generated subdivisions, checked in the kernel) -/

namespace If97.Tm
set_option maxRecDepth 100000

theorem hs1_39 : verify (leafHs1 P12 15 1000 25 1000 42326610 1817) 42326610 1817 (.x (.x (.x (.x (.x (.x (.x (.x .l .l) .l) (.x .l .l)) (.x .l .l)) (.x (.x .l .l) (.x .l .l))) (.x (.x (.x .l .l) .l) (.x .l .l))) (.x (.x (.x .l .l) (.x .l .l)) (.x (.x .l .l) .l))) (.x (.x (.x .l .l) .l) (.x .l .l)))
    57673390 1000000 2243991 1000000 = true := by decide +kernel
theorem hs1_40 : verify (leafHs1 P12 15 1000 25 1000 42230704 1812) 42230704 1812 (.x (.x (.x (.x (.x (.x (.x (.x .l .l) (.x .l .l)) (.x .l .l)) (.x .l .l)) (.x (.x .l .l) (.x .l .l))) (.x (.x (.x .l .l) (.x .l .l)) (.x .l .l))) (.x (.x (.x .l .l) (.x .l .l)) (.x (.x .l .l) .l))) (.x (.x (.x .l .l) .l) (.x .l .l)))
    57769296 1000000 2240364 1000000 = true := by decide +kernel
theorem hs1_41 : verify (leafHs1 P12 15 1000 25 1000 42133817 904) 42133817 904 (.x (.x (.x (.x (.x (.x (.x .l .l) (.x .l .l)) (.x .l .l)) (.x (.x .l .l) (.x .l .l))) (.x (.x (.x .l .l) (.x .l .l)) (.x .l .l))) (.x (.x (.x .l .l) (.x .l .l)) (.x (.x .l .l) .l))) (.x (.x (.x .l .l) .l) (.x .l .l)))
    57866183 1000000 2237650 1000000 = true := by decide +kernel

end If97.Tm
