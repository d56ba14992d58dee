import Verif.Lemmas.Tm.Comp.Region1

/-! p(h, s) and T(h, s) in region 1, part 6 (generated subdivisions, checked in the kernel) -/

namespace If97.Tm
set_option maxRecDepth 100000

theorem hs1_26 : verify (leafHs1 P12 15 1000 25 1000 44245713 2933) 44245713 2933 (.x (.x (.x (.x (.x (.x .l .l) (.x .l .l)) (.x (.x .l .l) .l)) (.x (.x .l .l) (.x .l .l))) (.x (.x (.x .l .l) (.x .l .l)) (.x .l .l))) (.x (.x .l .l) (.x (.x .l .l) (.x .l .l))))
    55754287 1000000 2327851 1000000 = true := by decide +kernel
theorem hs1_27 : verify (leafHs1 P12 15 1000 25 1000 44131030 5821) 44131030 5821 (.x (.x (.x (.x (.x (.y (.x .l .l) (.x .l .l)) (.x .l .l)) (.x (.x .l .l) .l)) (.x (.x .l .l) (.x .l .l))) (.x (.x (.y (.x .l .l) (.x .l .l)) (.x .l .l)) (.x .l .l))) (.x (.x (.x .l .l) .l) (.x (.x .l .l) (.x .l .l))))
    55868970 1000000 2319098 1000000 = true := by decide +kernel
theorem hs1_28 : verify (leafHs1 P12 15 1000 25 1000 43896292 5763) 43896292 5763 (.x (.x (.x (.x (.x (.x .l .l) (.y (.y (.x .l .l) (.x .l .l)) (.x .l .l))) (.x (.x .l .l) .l)) (.x (.x .l .l) (.x .l .l))) (.x (.x (.x .l .l) (.x .l .l)) (.x .l .l))) (.x (.x (.x .l .l) .l) (.x (.x .l .l) (.x .l .l))))
    56103708 1000000 2307515 1000000 = true := by decide +kernel

end If97.Tm
