import Verif.Lemmas.DomainSat
import Verif.Lemmas.ApiVal
import Verif.Props.C02
import Verif.Props.C05

/-!
# C38 `pt` on the saturation line

The property asks that `pt` answers a state on the saturation line with a property value or an error code.
The code does neither: in region 4 it returns the number 4, the region, for *every* output id other than
the two echoes — enthalpy, volume, speed of sound and even an id that does not exist — except at the exact
critical point, where it evaluates the region 3 equation (`C38_critical_partial`).

* `C38_actual`: any number type, the exact behaviour in region 4.
* `C38_on_the_line`: exact arithmetic, every state within the tolerance of the saturation line.
* `C38_violated`: a state whose liquid and vapour enthalpies are far from 4.
-/

namespace If97
section
variable {F : Type} [Add F] [Sub F] [Mul F] [Div F] [Neg F] [OfScientific F] [Flt F]

/-- **Exact behaviour in region 4**: 4.0, whatever is asked. -/
theorem C38_actual (p t : F) (o : Int) (hP : o ≠ Doc.idP) (hT : o ≠ Doc.idT) (hR : o ≠ Doc.idR)
    (hc : ((t + 273.15 ==. (647.096 : F)) && (p ==. (22.064 : F))) = false) :
    Fn.pt.call p t o 4 = some 4.0 := by
  have h4 : ∀ o', Fn.pt.formula 4 p t o' = some 4.0 := fun o' => by
    show some (pT_reg4 p (t + 273.15) o') = _
    unfold pT_reg4
    rw [show ((t + 273.15 ==. TC_WATER) && (p ==. PC_WATER)) = false from hc]; rfl
  by_cases hX : o = Doc.idX
  · subst hX; rw [(C02_region_quality .pt p t).2.2.2.2, h4]
  · rw [C02_region_formula .pt p t o 4 (by decide) (by rintro (h | h); exacts [hP h, hT h]) hR hX, h4]

end

open Domain

/-- What holds: exactly at the critical point the region 3 equation is evaluated. -/
theorem C38_critical_partial (o : Int) (hP : o ≠ Doc.idP) (hT : o ≠ Doc.idT) (hR : o ≠ Doc.idR) (hX : o ≠ Doc.idX) :
    Fn.pt.call (22.064 : ℝ) 373.946 o 4 = some (Td_reg3 647.096 322 o) := by
  rw [C02_region_formula .pt _ _ o 4 (by decide) (by rintro (h | h); exacts [hP h, hT h]) hR hX]
  show some (pT_reg4 22.064 (373.946 + 273.15) o) = _
  unfold pT_reg4
  rw [if_pos]
  · norm_num [TC_WATER, DC_WATER]
  · norm_num [TC_WATER, PC_WATER]

/-- **Every state on the saturation line** (accepted, and within the tolerance): 4 for every id. -/
theorem C38_on_the_line (p t : ℝ) (hp : PressureOk p (t + 273.15)) (ht : TemperatureOk (t + 273.15))
    (hs : NearSat p (t + 273.15)) (o : Int) (hP : o ≠ Doc.idP) (hT : o ≠ Doc.idT) :
    Fn.pt.call0 p t o = some 4 := by
  have hg : ¬ Gap p (t + 273.15) := fun h => h.2.2.1 hs
  have h4 := (C05_map_partial p t hp ht hg 4).mpr (.r4 hs)
  have e4 : pT_sub_region p (t + 273.15) = 4 := by
    have : ((pT_sub_region p (t + 273.15) : Int) : ℝ) = ((4 : Int) : ℝ) := Option.some_inj.mp h4
    exact_mod_cast this
  have e : Fn.pt.call0 p t o = Fn.pt.call p t o 4 :=
    (C02_region_consistent .pt p t o 4 (by decide) (congrArg some e4)).symm
  rw [e]
  by_cases hR : o = Doc.idR
  · subst hR; show some (((4 : Int) : ℝ)) = _; norm_num
  · rw [C38_actual p t o hP hT hR, show (4.0 : ℝ) = 4 by norm_num]
    simp only [real_eq, Bool.and_eq_false_iff, decide_eq_false_iff_not]
    left; have := hs.1; exact this.ne

/-- Bounds of the saturation pressure at 100 °C. -/
private theorem psat_100 : 0.10141796 < Sat.psat (100 + 273.15) ∧ Sat.psat (100 + 273.15) < 0.10141804 := by
  constructor
  · refine lt_trans ?_ (Sat.lt_psat (b := 0.56432426) (by norm_num) ?_ (by norm_num) ?_)
    · norm_num
    · unfold Sat.qA Sat.qB Sat.th; norm_num
    · unfold Sat.Qf Sat.qA Sat.qB Sat.qC Sat.th; norm_num
  · refine lt_trans (Sat.psat_lt (b := 0.56432434) (by norm_num) ?_ ?_) ?_
    · unfold Sat.qA Sat.qB Sat.th; norm_num
    · unfold Sat.Qf Sat.qA Sat.qB Sat.qC Sat.th; norm_num
    · norm_num

private theorem state : PressureOk 0.101418 (100 + 273.15) ∧ TemperatureOk (100 + 273.15) ∧
    NearSat 0.101418 (100 + 273.15) := by
  refine ⟨by unfold PressureOk pMin; norm_num, by unfold TemperatureOk; norm_num, ?_⟩
  rw [nearSat_iff (by norm_num)]
  obtain ⟨h1, h2⟩ := psat_100
  refine ⟨by norm_num, ?_⟩
  rw [div_lt_iff₀ (by linarith), abs_lt]
  constructor <;> norm_num at * <;> linarith

/-- **Violation**: at 0.101418 MPa and 100 °C `pt` answers 4 kJ/kg; the liquid has more than 400, the vapour
more than 2600. -/
theorem C38_violated : ∃ hl hv : ℝ, Fn.pt.call0 (0.101418 : ℝ) 100 Doc.idH = some 4 ∧
    Fn.pt.call (0.101418 : ℝ) 100 Doc.idH 1 = some hl ∧ Fn.pt.call (0.101418 : ℝ) 100 Doc.idH 2 = some hv ∧
    400 < hl ∧ 2600 < hv := by
  refine ⟨_, _, C38_on_the_line _ _ state.1 state.2.1 state.2.2 _ (by decide) (by decide), rfl, rfl, ?_, ?_⟩
  · have := val_H (r := 1) (p := 0.101418) (t := 100) (.inl rfl) (by unfold Regular; norm_num)
    refine lt_of_lt_of_eq ?_ this.symm
    rw [Gr_1]
    simp only [Gibbs.H, G1, gasR, poly_j_powi_sum, r1_IJn]
    norm_num
  · have := val_H (r := 2) (p := 0.101418) (t := 100) (.inr (.inl rfl)) (by unfold Regular; norm_num)
    refine lt_of_lt_of_eq ?_ this.symm
    rw [Gr_2]
    simp only [Gibbs.H, G2, gasR, idealGibbs, poly_j_powi_sum, r2_IJn, idealSum1, r2_n0, r2_J0, nthF, nthI,
      show List.range' 0 9 = [0,1,2,3,4,5,6,7,8] from rfl]
    norm_num

/-- The same state shows that `C38_on_the_line` is not vacuous; an id that does not exist is answered too. -/
example : Fn.pt.call0 (0.101418 : ℝ) 100 77 = some 4 :=
  C38_on_the_line _ _ state.1 state.2.1 state.2.2 _ (by decide) (by decide)

end If97
