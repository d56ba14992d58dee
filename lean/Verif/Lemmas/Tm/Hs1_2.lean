import Verif.Lemmas.Tm.Comp.Region1

/-! p(h, s) and T(h, s) in region 1, part 2 (generated subdivisions, checked in the kernel) -/

namespace If97.Tm
set_option maxRecDepth 100000

theorem hs1_13 : verify (leafHs1 P12 15 1000 25 1000 48326842 50661) 48326842 50661 (.x (.x (.x (.x (.x (.y (.x (.y .l .l) .l) .l) (.y .l .l)) (.x (.y .l .l) .l)) (.x .l .l)) (.x (.x .l .l) (.x (.y .l .l) (.y .l (.x .l .l))))) (.x (.x (.x (.y .l .l) .l) .l) (.x .l (.y .l .l))))
    51673158 1000000 2650304 1000000 = true := by decide +kernel
theorem hs1_14 : verify (leafHs1 P12 15 1000 25 1000 47654200 23932) 47654200 23932 (.x (.x (.x (.x (.y (.x .l .l) (.x .l .l)) (.x .l .l)) (.x .l .l)) (.x (.x .l .l) (.x .l .l))) (.x (.x .l .l) .l))
    52345800 1000000 2575713 1000000 = true := by decide +kernel
theorem hs1_15 : verify (leafHs1 P12 15 1000 25 1000 47248856 23067) 47248856 23067 (.x (.x (.x (.x (.y (.y (.y (.x .l .l) (.x .l .l)) (.x .l .l)) (.y (.x .l .l) (.x .l .l))) (.y (.y (.x .l .l) (.x .l .l)) (.x .l .l))) (.x .l .l)) (.x (.x .l .l) (.x .l .l))) (.x (.x .l .l) (.x .l .l)))
    52751144 1000000 2528716 1000000 = true := by decide +kernel
theorem hs1_16 : verify (leafHs1 P12 15 1000 25 1000 46792092 22248) 46792092 22248 (.x (.x (.x (.x (.y (.y (.y (.x .l .l) (.y (.x .l .l) (.x .l .l))) (.y (.y (.x .l .l) (.x .l .l)) (.y (.y (.x .l .l) (.x .l .l)) (.y (.x .l .l) (.x .l .l))))) (.y (.y (.y (.y (.x .l .l) (.x .l .l)) (.x .l .l)) (.y (.x .l .l) (.x .l .l))) (.y (.y (.x .l .l) (.x .l .l)) (.x .l .l)))) (.y (.y (.y (.x .l .l) (.x .l .l)) (.y (.x .l .l) (.y (.x .l .l) (.x .l .l)))) (.y (.y (.y (.y (.x .l .l) (.x .l .l)) (.y (.x .l .l) (.x .l .l))) (.y (.x .l .l) (.x .l .l))) (.y (.x .l .l) (.x .l .l))))) (.x (.y (.y (.y (.x .l .l) (.x .l .l)) .l) .l) .l)) (.x (.x .l .l) (.x .l .l))) (.x (.x .l .l) (.x .l .l)))
    53207908 1000000 2483403 1000000 = true := by decide +kernel

end If97.Tm
