import Verif.Lemmas.Stab3
import Verif.Lemmas.DomainSat
import Verif.Props.C02

/-!
# C55 Region 3: the states are stable

Exact arithmetic.  At a state (t, v) of region 3 up to 800 kg/m³ the answers of `tv` with region 3 satisfy what
thermodynamic stability demands: κ_T > 0, c_v > 0, c_p ≥ c_v, a positive speed of sound, and up to 100 MPa
(∂p/∂T)_v > 0 and c_p > c_v.  Above 373.95 °C this makes p and v, given t, determine each other, and likewise
p and t, given v.

At the critical point itself κ_T is infinite, and near it the equation of the release has states with κ_T < 0
(`C55_critical`); so the window 372.85 °C < t < 373.95 °C, 240 < ρ < 400 kg/m³ is left out.  Below it the liquid must
be denser, and the vapour less dense, than the parabola of C54 that stays inside the two-phase dome.
-/

namespace If97
open Domain

/-- (t, v), with the pressure p that belongs to it, is a state of region 3 outside the critical window -/
def StableState3 (t v p : ℝ) : Prop :=
  0.00125 ≤ v ∧ 350 ≤ t ∧ t ≤ 590 ∧
  (373.95 ≤ t ∨ (372.85 ≤ t ∧ (1 / v ≤ 240 ∨ 400 ≤ 1 / v)) ∨
   (t ≤ 372.85 ∧ ∀ ps, IsSat ps (t + 273.15) →
    (p < ps → pB23 (t + 273.15) ≤ p ∧ 1 / v ≤ 322 - (16 * (373.946 - t) - (373.946 - t) ^ 2 / 3)) ∧
    (ps ≤ p → p ≤ 100 ∧ 322 + (16 * (373.946 - t) - (373.946 - t) ^ 2 / 3) ≤ 1 / v)))

private theorem press {t v p : ℝ} (hp : Fn.tv.call t v Doc.idP 3 = some p) : Td2p_reg3 (t + 273.15) (1 / v) = p := by
  rw [← Option.some_inj, ← hp]
  show _ = some (Td2p_reg3 (t + 273.15) (1.0 / v))
  norm_num

private theorem stable {t v p : ℝ} (hp : Fn.tv.call t v Doc.idP 3 = some p) (h : StableState3 t v p) :
    0 < t + 273.15 ∧ 0 < 1 / v ∧ R3.Stable (t + 273.15) (1 / v) := by
  have e := press hp
  obtain ⟨h1, t1, t2, h3⟩ := h
  have hv : 0 < v := by linarith
  have hd : 0 < 1 / v := by positivity
  have hd' : 1 / v ≤ 800 := by rw [div_le_iff₀ hv]; linarith
  refine ⟨by linarith, hd, ?_⟩
  rcases h3 with h3 | ⟨h3, h4⟩ | ⟨h3, h4⟩
  · exact R3.stable_hot (by linarith) (by linarith) hd hd'
  · rcases le_total 373.95 t with h5 | h5
    · exact R3.stable_hot (by linarith) (by linarith) hd hd'
    · exact R3.stable_mid (by linarith) (by linarith) hd hd' h4
  · obtain ⟨g1, g2⟩ := h4 _ (isSat_psat ⟨by linarith, by linarith⟩)
    have eu : 647.096 - (t + 273.15) = 373.946 - t := by ring
    rcases lt_or_ge p (Sat.psat (t + 273.15)) with hs | hs
    · exact R3.stable_vap (by linarith) (by linarith) hd (by rw [eu]; exact (g1 hs).2) (e ▸ (g1 hs).1) (e ▸ hs.le)
    · exact R3.stable_liq (by linarith) (by linarith) hd' (by rw [eu]; exact (g2 hs).2) (e ▸ hs) (e ▸ (g2 hs).1)

private theorem one {v : ℝ} : (1.0 : ℝ) / v = 1 / v := by norm_num

/-- Compressibility, heat capacities, speed of sound, and the pressure coefficient up to 100 MPa. -/
theorem C55_stable {t v p : ℝ} (hp : Fn.tv.call t v Doc.idP 3 = some p) (h : StableState3 t v p) :
    ∃ kt cv cp w b : ℝ, Fn.tv.call t v Doc.idKt 3 = some kt ∧ Fn.tv.call t v Doc.idCv 3 = some cv ∧
      Fn.tv.call t v Doc.idCp 3 = some cp ∧ Fn.tv.call t v Doc.idW 3 = some w ∧ Fn.tv.call t v Doc.idDpdt 3 = some b ∧
      0 < kt ∧ 0 < cv ∧ cv ≤ cp ∧ 0 < w ∧ (p ≤ 100 → 0 < b ∧ cv < cp) := by
  obtain ⟨hT, hd, hs⟩ := stable hp h
  have e := press hp
  refine ⟨Td2kt_reg3 (t + 273.15) (1.0 / v), Td2cv_reg3 (t + 273.15) (1.0 / v), Td2cp_reg3 (t + 273.15) (1.0 / v),
    Td2w_reg3 (t + 273.15) (1.0 / v), Td2dpdtcv_reg3 (t + 273.15) (1.0 / v), rfl, rfl, rfl, rfl, rfl, ?_⟩
  rw [one, R3.vKt hT hd, R3.vCv hT hd, R3.vCp hT hd, R3.vW hT hd, R3.vDpdt hT hd]
  exact ⟨hs.kt hT hd, hs.cv hT hd, hs.cp hT hd, hs.w hT hd, fun hp => ⟨hs.dpdt hT hd (e ▸ hp), hs.cp' hT hd (e ▸ hp)⟩⟩

/-- Along an isotherm above 373.95 °C the pressure falls and, from 100 MPa down, the entropy grows with the volume. -/
theorem C55_isotherm {t v v' : ℝ} (t1 : 373.95 ≤ t) (t2 : t ≤ 590) (h0 : 0.00125 ≤ v) (h : v < v') :
    ∃ p p' s s' : ℝ, Fn.tv.call t v Doc.idP 3 = some p ∧ Fn.tv.call t v' Doc.idP 3 = some p' ∧
      Fn.tv.call t v Doc.idS 3 = some s ∧ Fn.tv.call t v' Doc.idS 3 = some s' ∧ p' < p ∧ (p ≤ 100 → s < s') := by
  have hT : 0 < t + 273.15 := by linarith
  have hv : 0 < v := by linarith
  have hv' : 0 < v' := by linarith
  refine ⟨Td2p_reg3 (t + 273.15) (1.0 / v), Td2p_reg3 (t + 273.15) (1.0 / v'), Td2s_reg3 (t + 273.15) (1.0 / v),
    Td2s_reg3 (t + 273.15) (1.0 / v'), rfl, rfl, rfl, rfl, ?_⟩
  rw [one, one, R3.vP hT (by positivity), R3.vP hT (by positivity), R3.vS hT (by positivity), R3.vS hT (by positivity)]
  exact ⟨R3.P_anti (by linarith) (by linarith) h0 h, R3.S_mono (by linarith) (by linarith) h0 h⟩

/-- Along an isochore above 373.95 °C pressure, enthalpy and internal energy grow with the temperature, up to 100 MPa. -/
theorem C55_isochore {t t' v p' : ℝ} (t1 : 373.95 ≤ t) (h : t < t') (t2 : t' ≤ 590) (h0 : 0.00125 ≤ v)
    (hp : Fn.tv.call t' v Doc.idP 3 = some p') (hM : p' ≤ 100) :
    ∃ p y y' u u' : ℝ, Fn.tv.call t v Doc.idP 3 = some p ∧ Fn.tv.call t v Doc.idH 3 = some y ∧
      Fn.tv.call t' v Doc.idH 3 = some y' ∧ Fn.tv.call t v Doc.idU 3 = some u ∧ Fn.tv.call t' v Doc.idU 3 = some u' ∧
      p < p' ∧ y < y' ∧ u < u' := by
  have hT : 0 < t + 273.15 := by linarith
  have hT' : 0 < t' + 273.15 := by linarith
  have hv : 0 < v := by linarith
  have hd : 0 < 1 / v := by positivity
  have hd' : 1 / v ≤ 800 := by rw [div_le_iff₀ hv]; linarith
  have e := press hp
  rw [R3.vP hT' hd] at e
  refine ⟨Td2p_reg3 (t + 273.15) (1.0 / v), Td2h_reg3 (t + 273.15) (1.0 / v), Td2h_reg3 (t' + 273.15) (1.0 / v),
    Td2u_reg3 (t + 273.15) (1.0 / v), Td2u_reg3 (t' + 273.15) (1.0 / v), rfl, rfl, rfl, rfl, rfl, ?_⟩
  rw [one, R3.vP hT hd, R3.vH hT hd, R3.vH hT' hd, R3.vU hT hd, R3.vU hT' hd, ← e]
  have a1 : 647.1 ≤ t + 273.15 := by linarith
  have a2 : t + 273.15 < t' + 273.15 := by linarith
  have a3 : t' + 273.15 ≤ 863.15 := by linarith
  exact ⟨R3.P_mono_T a1 a2 a3 hd hd' (e ▸ hM), R3.H_mono_T a1 a2 a3 hd hd' (e ▸ hM), R3.U_mono_T a1 a2 a3 hd hd' (e ▸ hM)⟩

/-- So above 373.95 °C one volume answers a pressure and a temperature, and one temperature a pressure and a volume. -/
theorem C55_unique {t t' v v' p : ℝ} (t1 : 373.95 ≤ t) (t2 : t ≤ 590) (t1' : 373.95 ≤ t') (t2' : t' ≤ 590)
    (h0 : 0.00125 ≤ v) (h0' : 0.00125 ≤ v') (hM : p ≤ 100) (hp : Fn.tv.call t v Doc.idP 3 = some p)
    (hp' : Fn.tv.call t' v' Doc.idP 3 = some p) (h : t = t' ∨ v = v') : t = t' ∧ v = v' := by
  rcases h with rfl | rfl
  · refine ⟨rfl, ?_⟩
    rcases lt_trichotomy v v' with g | g | g
    · obtain ⟨p1, p2, -, -, e1, e2, -, -, hlt, -⟩ := C55_isotherm t1 t2 h0 g
      rw [hp] at e1; rw [hp'] at e2; cases e1; cases e2; exact absurd hlt (lt_irrefl _)
    · exact g
    · obtain ⟨p1, p2, -, -, e1, e2, -, -, hlt, -⟩ := C55_isotherm t1 t2 h0' g
      rw [hp'] at e1; rw [hp] at e2; cases e1; cases e2; exact absurd hlt (lt_irrefl _)
  · refine ⟨?_, rfl⟩
    rcases lt_trichotomy t t' with g | g | g
    · obtain ⟨p1, -, -, -, -, e1, -, -, -, -, hlt, -⟩ := C55_isochore t1 g t2' h0 hp' hM
      rw [hp] at e1; cases e1; exact absurd hlt (lt_irrefl _)
    · exact g
    · obtain ⟨p1, -, -, -, -, e1, -, -, -, -, hlt, -⟩ := C55_isochore t1' g t2 h0 hp hM
      rw [hp'] at e1; cases e1; exact absurd hlt (lt_irrefl _)

/-- The critical window cannot be dropped: at 373.85 °C and the critical density, inside the dome, `tv` returns a negative
compressibility. -/
theorem C55_critical : ∃ kt : ℝ, Fn.tv.call (373.85 : ℝ) (1 / 322) Doc.idKt 3 = some kt ∧ kt < 0 := by
  refine ⟨Td2kt_reg3 (373.85 + 273.15) (1.0 / (1 / 322)), rfl, ?_⟩
  rw [show (373.85 + 273.15 : ℝ) = 647 by norm_num, show (1.0 / (1 / 322) : ℝ) = 322 by norm_num,
    R3.vKt (by norm_num) (by norm_num)]
  refine div_neg_of_neg_of_pos (by norm_num) ?_
  have hD : R3.D2 647 322 < 0 := by
    norm_num [R3.D2, R3.fd, R3.fdd, R3.xd, R3.yt, poly_i_powi_sum, poly_ii_powi_sum, r3_IJn, n1]
  have := gasR_pos
  unfold R3.Dpdv
  rw [neg_pos]
  exact mul_neg_of_pos_of_neg (by positivity) hD

/-- A concrete state: 700 K and the critical density. -/
example : StableState3 426.85 (1 / 322) 36 := ⟨by norm_num, by norm_num, by norm_num, .inl (by norm_num)⟩
example : ∃ kt : ℝ, Fn.tv.call (426.85 : ℝ) (1 / 322) Doc.idKt 3 = some kt ∧ 0 < kt := by
  obtain ⟨kt, -, -, -, -, h, -, -, -, -, hk, -⟩ := C55_stable (t := 426.85) (v := 1 / 322) rfl
    ⟨by norm_num, by norm_num, by norm_num, .inl (by norm_num)⟩
  exact ⟨kt, h, hk⟩

end If97
