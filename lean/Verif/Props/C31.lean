import Verif.Props.C02
import Verif.Props.C28

/-!
# C31 Two-phase properties over the whole saturation range

Exact arithmetic.  For 0 < x < 1 the two-phase value is made of property values of the two saturated
states — of `pt` in regions 1 and 2 up to 350 °C, of `tv` in region 3 above — and not of error codes, for
every mixed output except the density.  The density of a mixture is not available above 350 °C:
`C31_density_violated` shows that `px` and `tx` answer −1000 on that whole part of the curve.
-/

namespace If97
open Set TwoPhase

/-- `l` and `v` are single-phase property values at the temperature t (°C) and pressure p. -/
def SaturatedValues (p t : ℝ) (o : Int) (l v : ℝ) : Prop :=
  if t ≤ 350 then Fn.pt.call p t o 1 = some l ∧ Fn.pt.call p t o 2 = some v
  else ∃ vl vv, Fn.tv.call t vl o 3 = some l ∧ Fn.tv.call t vv o 3 = some v

private theorem noEcho {o : Int} (ho : Mixed o) (hD : o ≠ Doc.idD) : ¬ Fn.pt.Echo o ∧ o ≠ Doc.idR ∧ o ≠ Doc.idX := by
  rcases ho with rfl | rfl | rfl | rfl | rfl | rfl | rfl | rfl <;> decide

private theorem tv_val (T v : ℝ) {o : Int} (ho : Mixed o) (hD : o ≠ Doc.idD) :
    Fn.tv.call (T - 273.15) v o 3 = some (Td_reg3 T (1 / v) o) := by
  by_cases hV : o = OV
  · subst hV; rw [Td_V]; rfl
  · have he : ¬ Fn.tv.Echo o := by
      rcases ho with rfl | rfl | rfl | rfl | rfl | rfl | rfl | rfl <;> first | decide | exact absurd rfl hV
    rw [C02_region_formula .tv _ _ o 3 (by decide) he (noEcho ho hD).2.1 (noEcho ho hD).2.2]
    show some (tv_reg3 (T - 273.15) v o) = _
    unfold tv_reg3
    rw [if_neg (fun h : (o == OD) = true => hD (beq_iff_eq.mp h)), K, sub_add_cancel, show (1.0 : ℝ) = 1 by norm_num]

private theorem satVals (p T : ℝ) {o : Int} (ho : Mixed o) (hD : 623.15 < T → o ≠ Doc.idD) :
    SaturatedValues p (T - 273.15) o (L p T o) (V p T o) := by
  unfold SaturatedValues L V
  by_cases h : 623.15 < T
  · rw [if_neg (by norm_num at *; linarith), if_pos h, if_pos h]
    exact ⟨_, _, tv_val T _ ho (hD h), tv_val T _ ho (hD h)⟩
  · rw [if_pos (by norm_num at *; linarith), if_neg h, if_neg h]
    have : ¬ Fn.pt.Echo o ∧ o ≠ Doc.idR ∧ o ≠ Doc.idX := by
      rcases ho with rfl | rfl | rfl | rfl | rfl | rfl | rfl | rfl <;> decide
    rw [C02_region_formula .pt _ _ o 1 (by decide) this.1 this.2.1 this.2.2,
      C02_region_formula .pt _ _ o 2 (by decide) this.1 this.2.1 this.2.2]
    show some (pT_reg1 p (T - 273.15 + 273.15) o) = _ ∧ some (pT_reg2 p (T - 273.15 + 273.15) o) = _
    rw [sub_add_cancel]; exact ⟨rfl, rfl⟩

/-- **`px`**: every output of the mixture except the density above 350 °C. -/
theorem C31_px_partial (p x : ℝ) (o : Int) (ho : MixedOutput o) (h1 : 0.000611212677444 ≤ p) (h2 : p ≤ 22.064)
    (hx : 0 < x ∧ x < 1) :
    ∃ t, FnX.px.call p x Doc.idT = some t ∧ ((350 < t → o ≠ Doc.idD) →
      ∃ l v, SaturatedValues p t o l v ∧ FnX.px.call p x o = some (l + x * (v - l))) := by
  have hm : x ∈ Icc (0 : ℝ) 1 := ⟨hx.1.le, hx.2.le⟩
  have ho := ho.mixed
  refine ⟨_, Sat.px_T h1 h2 hm, fun hD => ⟨_, _, satVals p (T_saturation p) ho (fun h => hD (by norm_num at *; linarith)), ?_⟩⟩
  rw [px_call h1 h2 hm ho.neP ho.neX, px_mid hx.1.ne' hx.2.ne ho]

/-- **`tx`**: the same. -/
theorem C31_tx_partial (t x : ℝ) (o : Int) (ho : MixedOutput o) (h1 : 0 ≤ t) (h2 : t ≤ 373.946)
    (hx : 0 < x ∧ x < 1) (hD : 350 < t → o ≠ Doc.idD) :
    ∃ p, FnX.tx.call t x Doc.idP = some p ∧ ∃ l v, SaturatedValues p t o l v ∧
      FnX.tx.call t x o = some (l + x * (v - l)) := by
  have hm : x ∈ Icc (0 : ℝ) 1 := ⟨hx.1.le, hx.2.le⟩
  have ho := ho.mixed
  have := satVals (Sat.psat (t + 273.15)) (t + 273.15) ho (fun h => hD (by norm_num at *; linarith))
  rw [add_sub_cancel_right] at this
  refine ⟨_, Sat.tx_P h1 h2 hm, _, _, this, ?_⟩
  rw [tx_call h1 h2 hm ho.neT ho.neX, tx_mid hx.1.ne' hx.2.ne ho, Sat.p_saturation_eq, if_neg]
  push Not; norm_num at *; constructor <;> linarith

/-- **The density above 350 °C** is answered with −1000, at every pressure and temperature and for every
proper mixture. -/
theorem C31_density_violated (x : ℝ) (hx : 0 < x ∧ x < 1) :
    (∀ p : ℝ, 16.5291642526047 ≤ p → p ≤ 22.064 → FnX.px.call p x Doc.idD = some (-1000)) ∧
    (∀ t : ℝ, 350 < t → t ≤ 373.946 → FnX.tx.call t x Doc.idD = some (-1000)) := by
  have hm : x ∈ Icc (0 : ℝ) 1 := ⟨hx.1.le, hx.2.le⟩
  have ho : Mixed Doc.idD := .inr (.inl rfl)
  have key : ∀ p T : ℝ, 623.15 < T → L p T Doc.idD + x * (V p T Doc.idD - L p T Doc.idD) = -1000 := fun p T h => by
    have e1 : L p T Doc.idD = -1000 := by unfold L; rw [if_pos h]; exact Td_D _ _
    have e2 : V p T Doc.idD = -1000 := by unfold V; rw [if_pos h]; exact Td_D _ _
    rw [e1, e2]; ring
  constructor
  · intro p h1 h2
    rw [px_call (by norm_num at *; linarith) h2 hm ho.neP ho.neX, px_mid hx.1.ne' hx.2.ne ho, key _ _ (high h1 h2)]
  · intro t h1 h2
    rw [tx_call (by linarith) h2 hm ho.neT ho.neX, tx_mid hx.1.ne' hx.2.ne ho, key _ _ (by norm_num at *; linarith)]

/-- Concrete: 20 MPa is in the range of the violation; 1 MPa, enthalpy, is in that of `C31_px_partial`. -/
example : FnX.px.call (20 : ℝ) 0.5 Doc.idD = some (-1000) :=
  (C31_density_violated 0.5 (by norm_num)).1 20 (by norm_num) (by norm_num)
example : ∃ t, FnX.px.call (1 : ℝ) 0.5 Doc.idT = some t ∧ ∃ l v, SaturatedValues 1 t Doc.idH l v ∧
    FnX.px.call (1 : ℝ) 0.5 Doc.idH = some (l + 0.5 * (v - l)) := by
  obtain ⟨t, h, h'⟩ := C31_px_partial 1 0.5 Doc.idH (by simp [MixedOutput]) (by norm_num) (by norm_num) (by norm_num)
  exact ⟨t, h, h' fun _ => by decide⟩

end If97
