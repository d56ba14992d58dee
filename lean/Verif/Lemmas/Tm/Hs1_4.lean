import Verif.Lemmas.Tm.Comp.Region1

/-! p(h, s) and T(h, s) in region 1, part 4 (generated subdivisions, checked in the kernel) -/

namespace If97.Tm
set_option maxRecDepth 100000

theorem hs1_18 : verify (leafHs1 P12 15 1000 25 1000 46000923 10641) 46000923 10641 (.x (.x (.x (.x (.y (.x .l .l) (.x .l .l)) (.x .l .l)) (.x (.x .l .l) (.x .l .l))) (.x (.x .l .l) (.x .l .l))) (.x (.x .l .l) (.x .l .l)))
    53999077 1000000 2428856 1000000 = true := by decide +kernel
theorem hs1_19 : verify (leafHs1 P12 15 1000 25 1000 45706576 10458) 45706576 10458 (.x (.x (.x (.x (.x .l .l) (.x .l .l)) (.x (.x .l .l) (.x .l .l))) (.x (.x .l .l) (.x .l .l))) (.x (.x .l .l) (.x .l .l)))
    54293424 1000000 2407759 1000000 = true := by decide +kernel
theorem hs1_20 : verify (leafHs1 P12 15 1000 25 1000 45395867 10278) 45395867 10278 (.x (.x (.x (.x (.x (.y (.x .l .l) (.x .l .l)) .l) (.x .l .l)) (.x (.x .l .l) (.x .l .l))) (.x (.x (.y (.x .l .l) .l) .l) (.x .l .l))) (.x (.x .l .l) (.x .l .l)))
    54604133 1000000 2387024 1000000 = true := by decide +kernel
theorem hs1_21 : verify (leafHs1 P12 15 1000 25 1000 45068121 5073) 45068121 5073 (.x (.x (.x (.x (.x (.x .l .l) (.x .l .l)) (.x .l .l)) (.x (.x .l .l) (.x .l .l))) (.x (.x (.x .l .l) .l) (.x .l .l))) (.x (.x .l .l) (.x .l .l)))
    54931879 1000000 2371674 1000000 = true := by decide +kernel
theorem hs1_22 : verify (leafHs1 P12 15 1000 25 1000 44897639 5031) 44897639 5031 (.x (.x (.x (.x (.x (.x .l .l) (.x .l .l)) (.x .l .l)) (.x (.x .l .l) (.x .l .l))) (.x (.x (.y (.x .l .l) (.x .l .l)) .l) (.x .l .l))) (.x (.x .l .l) (.x (.x .l .l) .l)))
    55102361 1000000 2361572 1000000 = true := by decide +kernel

end If97.Tm
