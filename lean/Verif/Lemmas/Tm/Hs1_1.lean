import Verif.Lemmas.Tm.Comp.Region1

/-! p(h, s) and T(h, s) in region 1, part 1 (generated subdivisions, checked in the kernel) -/

namespace If97.Tm
set_option maxRecDepth 100000

theorem hs1_6 : verify (leafHs1 P12 15 1000 25 1000 49949297 94477) 49949297 94477 (.x (.x .l (.x (.y .l .l) (.y .l (.x .l (.y .l .l))))) (.x (.x (.y (.y .l .l) (.x (.y .l .l) .l)) (.x (.y .l .l) .l)) (.x .l .l)))
    50050703 1000000 3619848 1000000 = true := by decide +kernel
theorem hs1_7 : verify (leafHs1 P12 15 1000 25 1000 49900678 85330) 49900678 85330 (.x (.x .l (.x .l .l)) (.x (.y .l (.x .l .l)) (.x .l (.x .l (.y .l .l)))))
    50099322 1000000 3440043 1000000 = true := by decide +kernel
theorem hs1_8 : verify (leafHs1 P12 15 1000 25 1000 49819268 77450) 49819268 77450 (.x (.x (.x (.x (.y (.x .l .l) .l) .l) .l) .l) (.x .l (.x .l (.y .l .l))))
    50180732 1000000 3277265 1000000 = true := by decide +kernel
theorem hs1_9 : verify (leafHs1 P12 15 1000 25 1000 49690962 70614) 49690962 70614 (.x (.x (.x (.x (.y .l .l) .l) .l) .l) (.x .l .l))
    50309038 1000000 3129203 1000000 = true := by decide +kernel
theorem hs1_10 : verify (leafHs1 P12 15 1000 25 1000 49498733 64644) 49498733 64644 (.x (.x (.x .l .l) (.x .l (.y .l .l))) (.x .l .l))
    50501267 1000000 2993947 1000000 = true := by decide +kernel
theorem hs1_11 : verify (leafHs1 P12 15 1000 25 1000 49222742 59401) 49222742 59401 (.x (.x (.x .l .l) (.x (.x .l .l) (.y (.x .l .l) .l))) (.x (.x (.x (.y .l .l) .l) .l) (.x .l (.y .l .l))))
    50777258 1000000 2869904 1000000 = true := by decide +kernel
theorem hs1_12 : verify (leafHs1 P12 15 1000 25 1000 48840473 54770) 48840473 54770 (.x (.x (.x (.x (.y .l .l) .l) (.x .l .l)) (.x (.x .l .l) (.x (.y .l (.x .l .l)) (.y (.x .l .l) .l)))) (.x (.x (.x (.x (.y .l .l) .l) .l) .l) (.x .l (.x .l (.y .l .l)))))
    51159527 1000000 2755734 1000000 = true := by decide +kernel

end If97.Tm
