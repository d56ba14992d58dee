import Verif.Lemmas.Tm.Comp.Region1

/-! T(p, s) in region 1, part 0 (generated subdivisions, checked in the kernel) -/

namespace If97.Tm
set_option maxRecDepth 100000

theorem ps1_0 : verify (leafPs1 P12 25 1000 49999695 89602) 49999695 89602 (.x (.x .l .l) (.y (.x .l .l) .l))
    50000305 1000000 4984534 1000000 = true := by decide +kernel
theorem ps1_1 : verify (leafPs1 P12 25 1000 49999387 83490) 49999387 83490 (.x .l (.x .l (.x .l .l)))
    50000613 1000000 4811444 1000000 = true := by decide +kernel
theorem ps1_2 : verify (leafPs1 P12 25 1000 49998831 150981) 49998831 150981 (.x .l (.x .l (.y .l .l)))
    50001169 1000000 4576974 1000000 = true := by decide +kernel
theorem ps1_3 : verify (leafPs1 P12 25 1000 49996309 132853) 49996309 132853 (.x .l .l)
    50003691 1000000 4293141 1000000 = true := by decide +kernel
theorem ps1_4 : verify (leafPs1 P12 25 1000 49990029 117806) 49990029 117806 (.x .l .l)
    50009971 1000000 4042483 1000000 = true := by decide +kernel
theorem ps1_5 : verify (leafPs1 P12 25 1000 49976296 105178) 49976296 105178 (.x .l .l)
    50023704 1000000 3819501 1000000 = true := by decide +kernel
theorem ps1_6 : verify (leafPs1 P12 25 1000 49949297 94477) 49949297 94477 (.l)
    50050703 1000000 3619848 1000000 = true := by decide +kernel
theorem ps1_7 : verify (leafPs1 P12 25 1000 49900678 85330) 49900678 85330 (.l)
    50099322 1000000 3440043 1000000 = true := by decide +kernel
theorem ps1_8 : verify (leafPs1 P12 25 1000 49819268 77450) 49819268 77450 (.l)
    50180732 1000000 3277265 1000000 = true := by decide +kernel
theorem ps1_9 : verify (leafPs1 P12 25 1000 49690962 70614) 49690962 70614 (.l)
    50309038 1000000 3129203 1000000 = true := by decide +kernel
theorem ps1_10 : verify (leafPs1 P12 25 1000 49498733 64644) 49498733 64644 (.x .l .l)
    50501267 1000000 2993947 1000000 = true := by decide +kernel
theorem ps1_11 : verify (leafPs1 P12 25 1000 49222742 59401) 49222742 59401 (.x (.x .l .l) .l)
    50777258 1000000 2869904 1000000 = true := by decide +kernel
theorem ps1_12 : verify (leafPs1 P12 25 1000 48840473 54770) 48840473 54770 (.x (.x .l .l) (.x .l .l))
    51159527 1000000 2755734 1000000 = true := by decide +kernel
theorem ps1_13 : verify (leafPs1 P12 25 1000 48326842 50661) 48326842 50661 (.x (.x (.x .l .l) .l) (.x .l (.x .l .l)))
    51673158 1000000 2650304 1000000 = true := by decide +kernel
theorem ps1_14 : verify (leafPs1 P12 25 1000 47654200 23932) 47654200 23932 (.x (.x (.x .l .l) .l) (.x .l (.x .l .l)))
    52345800 1000000 2575713 1000000 = true := by decide +kernel
theorem ps1_15 : verify (leafPs1 P12 25 1000 47248856 23067) 47248856 23067 (.x (.x (.x .l .l) .l) (.x .l (.x .l .l)))
    52751144 1000000 2528716 1000000 = true := by decide +kernel
theorem ps1_16 : verify (leafPs1 P12 25 1000 46792092 22248) 46792092 22248 (.x (.x (.x .l .l) (.x .l .l)) (.x .l (.x .l .l)))
    53207908 1000000 2483403 1000000 = true := by decide +kernel
theorem ps1_17 : verify (leafPs1 P12 25 1000 46279551 10831) 46279551 10831 (.x (.x (.x .l .l) (.x .l .l)) (.x .l .l))
    53720449 1000000 2450327 1000000 = true := by decide +kernel
theorem ps1_18 : verify (leafPs1 P12 25 1000 46000923 10641) 46000923 10641 (.x (.x (.x (.x .l .l) .l) (.x .l .l)) (.x .l .l))
    53999077 1000000 2428856 1000000 = true := by decide +kernel
theorem ps1_19 : verify (leafPs1 P12 25 1000 45706576 10458) 45706576 10458 (.x (.x (.x (.x .l .l) .l) (.x .l .l)) (.x .l .l))
    54293424 1000000 2407759 1000000 = true := by decide +kernel
theorem ps1_20 : verify (leafPs1 P12 25 1000 45395867 10278) 45395867 10278 (.x (.x (.x (.x .l .l) .l) (.x .l .l)) (.x .l .l))
    54604133 1000000 2387024 1000000 = true := by decide +kernel
theorem ps1_21 : verify (leafPs1 P12 25 1000 45068121 5073) 45068121 5073 (.x (.x (.x (.x .l .l) .l) (.x .l .l)) (.x .l .l))
    54931879 1000000 2371674 1000000 = true := by decide +kernel
theorem ps1_22 : verify (leafPs1 P12 25 1000 44897639 5031) 44897639 5031 (.x (.x (.x (.x .l .l) .l) (.x .l .l)) .l)
    55102361 1000000 2361572 1000000 = true := by decide +kernel
theorem ps1_23 : verify (leafPs1 P12 25 1000 44722629 4988) 44722629 4988 (.x (.x (.x (.x .l .l) .l) (.x .l .l)) .l)
    55277371 1000000 2351555 1000000 = true := by decide +kernel
theorem ps1_24 : verify (leafPs1 P12 25 1000 44542994 4946) 44542994 4946 (.x (.x (.x (.x .l .l) .l) (.x .l .l)) .l)
    55457006 1000000 2341623 1000000 = true := by decide +kernel

end If97.Tm
