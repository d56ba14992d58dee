import Verif.Lemmas.Tm.Comp.Region1

/-! p(h, s) and T(h, s) in region 1, part 12 (generated subdivisions, checked in the kernel) -/

namespace If97.Tm
set_option maxRecDepth 100000

theorem hs1_45 : verify (leafHs1 P12 15 1000 25 1000 41937059 898) 41937059 898 (.x (.x (.x (.x (.x (.x (.x .l .l) (.x .l .l)) (.x .l .l)) (.x (.x .l .l) (.x .l .l))) (.x (.x (.y (.x .l .l) (.x .l .l)) (.x .l .l)) (.x .l .l))) (.x (.x (.x .l .l) (.x .l .l)) (.x (.x .l .l) (.x .l .l)))) (.x (.x (.x .l .l) .l) (.x .l .l)))
    58062941 1000000 2230448 1000000 = true := by decide +kernel
theorem hs1_46 : verify (leafHs1 P12 15 1000 25 1000 41887239 897) 41887239 897 (.x (.x (.x (.x (.x (.x (.x .l .l) .l) (.x .l .l)) (.x (.x .l .l) (.x .l .l))) (.x (.x (.y (.x .l .l) (.x .l .l)) (.x .l .l)) (.x (.x .l .l) .l))) (.x (.x (.x .l .l) (.x .l .l)) (.x (.x .l .l) (.x .l .l)))) (.x (.x (.x .l .l) .l) (.x .l .l)))
    58112761 1000000 2228655 1000000 = true := by decide +kernel
theorem hs1_47 : verify (leafHs1 P12 15 1000 25 1000 41837165 895) 41837165 895 (.x (.x (.x (.x (.x (.x (.x .l .l) .l) (.x .l .l)) (.x (.x .l .l) (.x .l .l))) (.x (.x (.y (.x .l .l) (.x .l .l)) (.x .l .l)) (.x (.x .l .l) .l))) (.x (.x (.x .l .l) (.x .l .l)) (.x (.x .l .l) (.x .l .l)))) (.x (.x (.x .l .l) .l) (.x .l .l)))
    58162835 1000000 2226864 1000000 = true := by decide +kernel

end If97.Tm
