import Verif.Lemmas.Tm.Comp.Region1

/-! T(p, h) in region 1, part 1 (generated subdivisions, checked in the kernel) -/

namespace If97.Tm
set_option maxRecDepth 100000

theorem ph1_9 : verify (leafPh1 P12 25 1000 49690962 70614) 49690962 70614 (.x (.x (.x (.x (.y .l .l) .l) .l) .l) (.x .l .l))
    50309038 1000000 3129203 1000000 = true := by decide +kernel
theorem ph1_10 : verify (leafPh1 P12 25 1000 49498733 64644) 49498733 64644 (.x (.x (.y .l .l) (.x .l .l)) (.x .l .l))
    50501267 1000000 2993947 1000000 = true := by decide +kernel
theorem ph1_11 : verify (leafPh1 P12 25 1000 49222742 59401) 49222742 59401 (.x (.x (.x .l .l) (.x (.x .l .l) (.y .l .l))) (.x (.x (.x .l .l) .l) .l))
    50777258 1000000 2869904 1000000 = true := by decide +kernel
theorem ph1_12 : verify (leafPh1 P12 25 1000 48840473 54770) 48840473 54770 (.x (.x (.x (.x .l .l) .l) (.x (.x .l .l) (.x (.y .l .l) (.y .l .l)))) (.x (.x (.x .l .l) .l) .l))
    51159527 1000000 2755734 1000000 = true := by decide +kernel
theorem ph1_13 : verify (leafPh1 P12 25 1000 48326842 50661) 48326842 50661 (.x (.x (.x (.x (.x (.y (.x (.y .l .l) .l) .l) (.y .l .l)) .l) .l) (.x .l (.x .l (.y .l .l)))) (.x (.x (.x (.y .l .l) .l) .l) .l))
    51673158 1000000 2650304 1000000 = true := by decide +kernel
theorem ph1_14 : verify (leafPh1 P12 25 1000 47654200 23932) 47654200 23932 (.x (.x (.x (.x .l .l) .l) (.x .l .l)) (.x (.x .l .l) .l))
    52345800 1000000 2575713 1000000 = true := by decide +kernel
theorem ph1_15 : verify (leafPh1 P12 25 1000 47248856 23067) 47248856 23067 (.x (.x (.x (.y (.x .l .l) (.x .l .l)) .l) (.x .l .l)) (.x (.x .l .l) (.x .l .l)))
    52751144 1000000 2528716 1000000 = true := by decide +kernel
theorem ph1_16 : verify (leafPh1 P12 25 1000 46792092 22248) 46792092 22248 (.x (.x (.x (.y (.y (.x .l .l) (.y (.x .l .l) (.x .l .l))) (.y (.y (.x .l .l) (.x .l .l)) (.x .l .l))) .l) (.x .l .l)) (.x (.x .l .l) (.x .l .l)))
    53207908 1000000 2483403 1000000 = true := by decide +kernel
theorem ph1_17 : verify (leafPh1 P12 25 1000 46279551 10831) 46279551 10831 (.x (.x (.x (.x .l .l) .l) (.x .l .l)) (.x (.x .l .l) (.x .l .l)))
    53720449 1000000 2450327 1000000 = true := by decide +kernel
theorem ph1_18 : verify (leafPh1 P12 25 1000 46000923 10641) 46000923 10641 (.x (.x (.x (.x .l .l) (.x .l .l)) (.x .l .l)) (.x (.x .l .l) (.x .l .l)))
    53999077 1000000 2428856 1000000 = true := by decide +kernel
theorem ph1_19 : verify (leafPh1 P12 25 1000 45706576 10458) 45706576 10458 (.x (.x (.x (.x .l .l) (.x .l .l)) (.x .l .l)) (.x (.x .l .l) (.x .l .l)))
    54293424 1000000 2407759 1000000 = true := by decide +kernel

end If97.Tm
