import Verif.Lemmas.ApiVal

/-!
# C21 Throttling coefficients

Exact arithmetic.  OJTC = −(1/OCP)(∂OH/∂p)_T holds everywhere.  OIJTC is documented as the isothermal
throttling coefficient in kJ/(kg·MPa), the unit of (∂OH/∂p)_T; the code returns 0.001 times that
derivative in every region (`C21_ijtc_gibbs`, `C21_ijtc_region3`), so the documented unit is wrong by a
factor 1000 wherever the derivative is not zero (`C21_ijtc_violated`).
-/

namespace If97

/-- Regions 1, 2, 5. -/
theorem C21_jtc_gibbs_partial (r : Int) (hr : GibbsRegion r) (p t : ℝ) (h : Regular r p (t + 273.15))
    (hV : valPT r Doc.idV p t ≠ 0) :
    ∃ dh, HasDerivAt (fun p => valPT r Doc.idH p t) dh p ∧ valPT r Doc.idJtc p t = -dh / valPT r Doc.idCp p t := by
  rw [val_V hr h] at hV
  exact ⟨_, deriv_p h (val_H hr) (Gibbs.dH_dp (h.smooth hr)), by rw [val_Jtc hr h hV, val_Cp hr h]⟩

/-- Region 3: (∂h/∂p)_T = (∂h/∂v)_T/(∂p/∂v)_T. -/
theorem C21_jtc_region3_partial (t v : ℝ) (hT : 0 < t + 273.15) (hv : 0 < v) (hv' pv : ℝ)
    (h1 : HasDerivAt (fun v => valTV Doc.idH t v) hv' v) (h2 : HasDerivAt (fun v => valTV Doc.idP t v) pv v)
    (hpv : pv ≠ 0) :
    valTV Doc.idJtc t v = -(hv' / pv) / valTV Doc.idCp t v := by
  rw [h1.unique (tv_deriv_v hT hv tv_H (R3.dH_dv hT hv))]
  have e := h2.unique (tv_deriv_v hT hv tv_P (R3.dP_dv hT hv))
  rw [e] at hpv ⊢
  rw [tv_Jtc hT hv, tv_Cp hT hv]
  generalize R3.Dpdv (t + 273.15) (1 / v) = D at hpv ⊢
  generalize R3.Dpdt (t + 273.15) (1 / v) = E
  generalize R3.Cp (t + 273.15) (1 / v) = C
  field_simp
  ring

/-- Regions 1, 2, 5: OIJTC is 0.001·(∂OH/∂p)_T. -/
theorem C21_ijtc_gibbs (r : Int) (hr : GibbsRegion r) (p t : ℝ) (h : Regular r p (t + 273.15)) :
    ∃ dh, HasDerivAt (fun p => valPT r Doc.idH p t) dh p ∧ valPT r Doc.idIJtc p t = 0.001 * dh :=
  ⟨_, deriv_p h (val_H hr) (Gibbs.dH_dp (h.smooth hr)), val_Ijtc hr h⟩

/-- Region 3: OIJTC is 0.001·(∂h/∂p)_T. -/
theorem C21_ijtc_region3 (t v : ℝ) (hT : 0 < t + 273.15) (hv : 0 < v) (hv' pv : ℝ)
    (h1 : HasDerivAt (fun v => valTV Doc.idH t v) hv' v) (h2 : HasDerivAt (fun v => valTV Doc.idP t v) pv v)
    (hpv : pv ≠ 0) (hC : valTV Doc.idCp t v ≠ 0) :
    valTV Doc.idIJtc t v = 0.001 * (hv' / pv) := by
  rw [tv_Ijtc hT hv, C21_jtc_region3_partial t v hT hv hv' pv h1 h2 hpv]
  field_simp
  norm_num
  ring

/-- OIJTC is not the derivative: region 1, 16.53 MPa and 1386/3.222 K (157 °C). -/
theorem C21_ijtc_violated :
    ¬ HasDerivAt (fun p => valPT 1 Doc.idH p (1386 / 3.222 - 273.15))
      (valPT 1 Doc.idIJtc 16.53 (1386 / 3.222 - 273.15)) 16.53 := by
  have h : Regular 1 16.53 (1386 / 3.222 - 273.15 + 273.15) :=
    ⟨by norm_num, by norm_num, fun _ => by norm_num, fun h => by norm_num at h⟩
  intro hd
  have e := hd.unique (deriv_p h (val_H (.inl rfl)) (Gibbs.dH_dp (h.smooth (.inl rfl))))
  rw [val_Ijtc (.inl rfl) h] at e
  have hne : (Gr 1).Dhdp 16.53 (1386 / 3.222 - 273.15 + 273.15) ≠ 0 := by
    simp only [Gr_1, Gibbs.Dhdp, G1, gasR, poly_ij_powi_sum, r1_IJn]
    norm_num
  generalize (Gr 1).Dhdp 16.53 (1386 / 3.222 - 273.15 + 273.15) = D at e hne
  apply hne
  norm_num at e
  linarith

end If97
