import Verif.Lemmas.Isentrope
import Verif.Props.C02

/-!
# C59 Heat and work between two states

Exact arithmetic.  Between two states of one region at the same pressure the enthalpy grows by more than T₁ Δs and by less
than T₂ Δs, where T₁ < T₂ are the two temperatures; between two states at the same temperature the Gibbs energy grows by
more than v₂ Δp and less than v₁ Δp, where v₁ > v₂ are the two volumes.  In region 3 above 373.95 °C the same holds for the
internal energy along isochores (T Δs) and for the Helmholtz energy along isotherms (-p Δv).  So the heat and the work that a
user computes from differences of the returned h, s, g, u, f never contradict the second law: no isobaric heating is credited
at a temperature outside the range it passes through, no isothermal compression yields work.

p in MPa, v in m³/kg, energies in kJ/kg, hence the factor 1000.
-/

namespace If97
open Domain Set

/-- a function whose slope f' falls lies between its two chords' end slopes -/
private theorem slope {f f' : ℝ → ℝ} {a b : ℝ} (hab : a < b) (hd : ∀ x ∈ Icc a b, HasDerivAt f (f' x) x)
    (h1 : ∀ x ∈ Ioo a b, f' b < f' x) (h2 : ∀ x ∈ Ioo a b, f' x < f' a) :
    f' b * (b - a) < f b - f a ∧ f b - f a < f' a * (b - a) := by
  obtain ⟨c, hc, e⟩ := exists_hasDerivAt_eq_slope f f' hab (fun x hx => (hd x hx).continuousAt.continuousWithinAt)
    fun x hx => hd x (Ioo_subset_Icc_self hx)
  rw [eq_div_iff (by linarith)] at e
  rw [← e]
  exact ⟨mul_lt_mul_of_pos_right (h1 c hc) (by linarith), mul_lt_mul_of_pos_right (h2 c hc) (by linarith)⟩

section
variable {r : Int} (hr : GibbsRegion r) {p t p' t' : ℝ} (hp : PressureOk p (t + 273.15)) (ht : TemperatureOk (t + 273.15))
  (h : Region p (t + 273.15) r)
include hr hp ht h

/-- Isobaric heating: T₁ Δs < Δh < T₂ Δs, and both are positive. -/
theorem C59_heat (hp' : PressureOk p (t' + 273.15)) (ht' : TemperatureOk (t' + 273.15)) (h' : Region p (t' + 273.15) r)
    (hlt : t < t') :
    0 < valPT r Doc.idS p t' - valPT r Doc.idS p t ∧
    (t + 273.15) * (valPT r Doc.idS p t' - valPT r Doc.idS p t) < valPT r Doc.idH p t' - valPT r Doc.idH p t ∧
    valPT r Doc.idH p t' - valPT r Doc.idH p t < (t' + 273.15) * (valPT r Doc.idS p t' - valPT r Doc.idS p t) := by
  have i := inRange_of_region hr hp ht h
  have i' := inRange_of_region hr hp' ht' h'
  have hTT : t + 273.15 < t' + 273.15 := by linarith
  rw [val_S hr i.regular, val_S hr i'.regular, val_H hr i.regular, val_H hr i'.regular, Gibbs.H_eq _ i.T_pos.ne',
    Gibbs.H_eq _ i'.T_pos.ne']
  have hb (x : ℝ) (hx : x ∈ Icc (t + 273.15) (t' + 273.15)) : InRange r p x := i.between i' hx.1 hx.2
  obtain ⟨h1, h2⟩ := slope hTT (f := fun T => (Gr r).Gf p T) (f' := fun T => -(Gr r).S p T)
    (fun x hx => Gibbs.dG_dT ((hb x hx).regular.smooth hr) (hb x hx).T_pos.ne')
    (fun x hx => neg_lt_neg ((hb x (Ioo_subset_Icc_self hx)).S_lt i' hx.2))
    (fun x hx => neg_lt_neg (i.S_lt (hb x (Ioo_subset_Icc_self hx)) hx.1))
  refine ⟨sub_pos.2 (i.S_lt i' hTT), ?_, ?_⟩ <;> nlinarith

/-- Isothermal compression: v₂ Δp < Δg < v₁ Δp, and v₂ is positive. -/
theorem C59_work (hp' : PressureOk p' (t + 273.15)) (h' : Region p' (t + 273.15) r) (hlt : p < p') :
    0 < valPT r Doc.idV p' t ∧
    1000 * valPT r Doc.idV p' t * (p' - p) < valPT r Doc.idG p' t - valPT r Doc.idG p t ∧
    valPT r Doc.idG p' t - valPT r Doc.idG p t < 1000 * valPT r Doc.idV p t * (p' - p) := by
  have i := inRange_of_region hr hp ht h
  have i' := inRange_of_region hr hp' ht h'
  rw [val_V hr i.regular, val_V hr i'.regular, val_G hr i.regular, val_G hr i'.regular]
  obtain ⟨h1, h2⟩ := i.G_compress i' hlt
  exact ⟨i'.stable.1, by linarith, by linarith⟩

end

/-! ### region 3, by (t, v) -/

section
private theorem one {v : ℝ} : (1.0 : ℝ) / v = 1 / v := by norm_num

private theorem pull {t v : ℝ} (ht : 0 < t + 273.15) (hv : 0 < v) :
    Fn.tv.call t v Doc.idP 3 = some (R3.P (t + 273.15) (1 / v)) ∧ Fn.tv.call t v Doc.idU 3 = some (R3.U (t + 273.15) (1 / v)) ∧
    Fn.tv.call t v Doc.idS 3 = some (R3.S (t + 273.15) (1 / v)) ∧ Fn.tv.call t v Doc.idF 3 = some (R3.Fh (t + 273.15) (1 / v)) := by
  have hd : 0 < 1 / v := by positivity
  refine ⟨?_, ?_, ?_, ?_⟩
  · show some (Td2p_reg3 (t + 273.15) (1.0 / v)) = _
    rw [one, R3.vP ht hd]
  · show some (Td2u_reg3 (t + 273.15) (1.0 / v)) = _
    rw [one, R3.vU ht hd]
  · show some (Td2s_reg3 (t + 273.15) (1.0 / v)) = _
    rw [one, R3.vS ht hd]
  · show some (Td2f_reg3 (t + 273.15) (1.0 / v)) = _
    rw [one, R3.vF ht hd]

private theorem U_eq {T d : ℝ} (hT : T ≠ 0) : R3.U T d = R3.Fh T d + T * R3.S T d := by
  unfold R3.U R3.Fh R3.S R3.yt
  field_simp
  ring

/-- Region 3 above 373.95 °C, heating at constant volume: T₁ Δs < Δu < T₂ Δs, and both are positive. -/
theorem C59_heat3 {t t' v : ℝ} (t1 : 373.95 ≤ t) (hlt : t < t') (t2 : t' ≤ 590) (h0 : 0.00125 ≤ v) :
    ∃ u u' s s' : ℝ, Fn.tv.call t v Doc.idU 3 = some u ∧ Fn.tv.call t' v Doc.idU 3 = some u' ∧
      Fn.tv.call t v Doc.idS 3 = some s ∧ Fn.tv.call t' v Doc.idS 3 = some s' ∧
      s < s' ∧ (t + 273.15) * (s' - s) < u' - u ∧ u' - u < (t' + 273.15) * (s' - s) := by
  have hT : 0 < t + 273.15 := by linarith
  have hT' : 0 < t' + 273.15 := by linarith
  have hv : 0 < v := by linarith
  have hd : 0 < 1 / v := by positivity
  have hd' : 1 / v ≤ 800 := by rw [div_le_iff₀ hv]; linarith
  obtain ⟨-, a2, a3, -⟩ := pull hT hv
  obtain ⟨-, b2, b3, -⟩ := pull hT' hv
  refine ⟨_, _, _, _, a2, b2, a3, b3, ?_⟩
  have hTT : t + 273.15 < t' + 273.15 := by linarith
  have k1 : 647.1 ≤ t + 273.15 := by linarith
  have k2 : t' + 273.15 ≤ 863.15 := by linarith
  rw [U_eq hT.ne', U_eq hT'.ne']
  obtain ⟨h1, h2⟩ := slope hTT (f := fun T => R3.Fh T (1 / v)) (f' := fun T => -R3.S T (1 / v))
    (fun x hx => R3.dF_dT (by linarith [hx.1]) hd)
    (fun x hx => neg_lt_neg (R3.S_mono_T (by linarith [hx.1]) hx.2 k2 hd hd'))
    (fun x hx => neg_lt_neg (R3.S_mono_T k1 hx.1 (by linarith [hx.2]) hd hd'))
  refine ⟨R3.S_mono_T k1 hTT k2 hd hd', ?_, ?_⟩ <;> nlinarith

/-- Region 3 above 373.95 °C, isothermal expansion: the Helmholtz energy falls by more than p₂ Δv and less than p₁ Δv. -/
theorem C59_work3 {t v v' : ℝ} (t1 : 373.95 ≤ t) (t2 : t ≤ 590) (h0 : 0.00125 ≤ v) (hlt : v < v') :
    ∃ p p' f f' : ℝ, Fn.tv.call t v Doc.idP 3 = some p ∧ Fn.tv.call t v' Doc.idP 3 = some p' ∧
      Fn.tv.call t v Doc.idF 3 = some f ∧ Fn.tv.call t v' Doc.idF 3 = some f' ∧
      1000 * p' * (v' - v) < f - f' ∧ f - f' < 1000 * p * (v' - v) := by
  have hT : 0 < t + 273.15 := by linarith
  have hv : 0 < v := by linarith
  obtain ⟨a1, -, -, a4⟩ := pull hT hv
  obtain ⟨b1, -, -, b4⟩ := pull hT (hv.trans hlt)
  refine ⟨_, _, _, _, a1, b1, a4, b4, ?_⟩
  have k1 : 647.1 ≤ t + 273.15 := by linarith
  have k2 : t + 273.15 ≤ 863.15 := by linarith
  obtain ⟨h1, h2⟩ := slope hlt (f := fun x => -R3.Fh (t + 273.15) (1 / x)) (f' := fun x => -(-(1000 * R3.P (t + 273.15) (1 / x))))
    (fun x hx => (R3.dF_dv hT (by linarith [hx.1])).neg)
    (fun x hx => by
      have := R3.P_anti k1 k2 (h0.trans hx.1.le) hx.2
      simp only [neg_neg]; linarith)
    (fun x hx => by
      have := R3.P_anti k1 k2 h0 hx.1
      simp only [neg_neg]; linarith)
  simp only [neg_neg] at h1 h2
  constructor <;> linarith

end

/-- Steam of 1 MPa heated from 1000 °C to 1100 °C. -/
example : (1000 + 273.15) * (valPT 5 Doc.idS 1 1100 - valPT 5 Doc.idS 1 1000) < valPT 5 Doc.idH 1 1100 - valPT 5 Doc.idH 1 1000 :=
  (C59_heat (.inr (.inr rfl)) ⟨by unfold pMin; norm_num, by norm_num, fun _ => by norm_num⟩ ⟨by norm_num, by norm_num⟩
    (.r5 (by norm_num)) ⟨by unfold pMin; norm_num, by norm_num, fun _ => by norm_num⟩ ⟨by norm_num, by norm_num⟩
    (.r5 (by norm_num)) (by norm_num)).2.1

/-- Steam of 1000 °C compressed from 1 MPa to 2 MPa. -/
example : valPT 5 Doc.idG 2 1000 - valPT 5 Doc.idG 1 1000 < 1000 * valPT 5 Doc.idV 1 1000 * (2 - 1) :=
  (C59_work (.inr (.inr rfl)) ⟨by unfold pMin; norm_num, by norm_num, fun _ => by norm_num⟩ ⟨by norm_num, by norm_num⟩
    (.r5 (by norm_num)) ⟨by unfold pMin; norm_num, by norm_num, fun _ => by norm_num⟩ (.r5 (by norm_num)) (by norm_num)).2.2

/-- 200 kg/m³ from 450 °C to 500 °C, and 450 °C from 200 kg/m³ to 100 kg/m³. -/
example : (∃ u u' s s' : ℝ, Fn.tv.call 450 (1 / 200) Doc.idU 3 = some u ∧ Fn.tv.call 500 (1 / 200) Doc.idU 3 = some u' ∧
      Fn.tv.call 450 (1 / 200) Doc.idS 3 = some s ∧ Fn.tv.call 500 (1 / 200) Doc.idS 3 = some s' ∧
      s < s' ∧ (450 + 273.15) * (s' - s) < u' - u ∧ u' - u < (500 + 273.15) * (s' - s)) ∧
    ∃ p p' f f' : ℝ, Fn.tv.call 450 (1 / 200) Doc.idP 3 = some p ∧ Fn.tv.call 450 (1 / 100) Doc.idP 3 = some p' ∧
      Fn.tv.call 450 (1 / 200) Doc.idF 3 = some f ∧ Fn.tv.call 450 (1 / 100) Doc.idF 3 = some f' ∧
      1000 * p' * (1 / 100 - 1 / 200) < f - f' ∧ f - f' < 1000 * p * (1 / 100 - 1 / 200) :=
  ⟨C59_heat3 (by norm_num) (by norm_num) (by norm_num) (by norm_num),
    C59_work3 (by norm_num) (by norm_num) (by norm_num) (by norm_num)⟩

end If97
