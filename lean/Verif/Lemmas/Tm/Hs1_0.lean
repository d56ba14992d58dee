import Verif.Lemmas.Tm.Comp.Region1

/-! p(h, s) and T(h, s) in region 1, part 0 (generated subdivisions, checked in the kernel) -/

namespace If97.Tm
set_option maxRecDepth 100000

theorem hs1_0 : verify (leafHs1 P12 15 1000 25 1000 49999695 89602) 49999695 89602 (.x (.x (.y .l .l) .l) (.x (.y (.x .l (.y .l .l)) (.y .l (.y .l (.x .l .l)))) (.y (.x (.x .l .l) .l) (.x .l .l))))
    50000305 1000000 4984534 1000000 = true := by decide +kernel
theorem hs1_1 : verify (leafHs1 P12 15 1000 25 1000 49999387 83490) 49999387 83490 (.x (.x (.x (.x (.y .l .l) .l) .l) .l) (.x (.x (.x .l .l) (.y .l .l)) (.x (.y .l (.x .l .l)) .l)))
    50000613 1000000 4811444 1000000 = true := by decide +kernel
theorem hs1_2 : verify (leafHs1 P12 15 1000 25 1000 49998831 150981) 49998831 150981 (.x (.x (.x (.x (.y .l (.x (.x (.y .l .l) .l) .l)) .l) .l) (.x .l .l)) (.x (.y (.x .l .l) (.x .l .l)) (.x (.y .l (.y .l .l)) (.y .l .l))))
    50001169 1000000 4576974 1000000 = true := by decide +kernel
theorem hs1_3 : verify (leafHs1 P12 15 1000 25 1000 49996309 132853) 49996309 132853 (.x (.x (.x .l .l) (.x .l .l)) (.x (.x .l .l) (.x .l (.x .l (.y .l .l)))))
    50003691 1000000 4293141 1000000 = true := by decide +kernel
theorem hs1_4 : verify (leafHs1 P12 15 1000 25 1000 49990029 117806) 49990029 117806 (.x (.x (.x .l .l) (.x .l .l)) (.x (.x .l .l) (.x .l (.x .l (.x .l (.y .l .l))))))
    50009971 1000000 4042483 1000000 = true := by decide +kernel
theorem hs1_5 : verify (leafHs1 P12 15 1000 25 1000 49976296 105178) 49976296 105178 (.x (.x (.x .l .l) (.x (.x .l (.y .l .l)) (.y (.x (.y .l .l) (.y .l .l)) .l))) (.x (.x (.x (.y .l .l) (.y .l .l)) (.x .l .l)) (.x .l .l)))
    50023704 1000000 3819501 1000000 = true := by decide +kernel

end If97.Tm
