import Verif.Lemmas.ApiVal

/-!
# C16 Volume derivatives, expansion and compressibility

Exact arithmetic.
-/

namespace If97

/-- Regions 1, 2, 5: the returned derivatives are the derivatives of the returned volume. -/
theorem C16_gibbs_derivatives (r : Int) (hr : GibbsRegion r) (p t : ℝ) (h : Regular r p (t + 273.15)) :
    HasDerivAt (fun t => valPT r Doc.idV p t) (valPT r Doc.idDvdt p t) t ∧
    HasDerivAt (fun p => valPT r Doc.idV p t) (valPT r Doc.idDvdp p t) p :=
  ⟨val_Dvdt hr h ▸ deriv_t h (val_V hr) (Gibbs.dV_dT (h.smooth hr) h.2.1.ne'),
   val_Dvdp hr h ▸ deriv_p h (val_V hr) (Gibbs.dV_dp (h.smooth hr))⟩

/-- Regions 1, 2, 5: the coefficients built from them. -/
theorem C16_gibbs_coefficients (r : Int) (hr : GibbsRegion r) (p t : ℝ) (h : Regular r p (t + 273.15))
    (hV : valPT r Doc.idV p t ≠ 0) :
    valPT r Doc.idEc p t = valPT r Doc.idDvdt p t / valPT r Doc.idV p t ∧
    valPT r Doc.idKt p t = -valPT r Doc.idDvdp p t / valPT r Doc.idV p t ∧
    valPT r Doc.idDpdt p t = -valPT r Doc.idDvdt p t / valPT r Doc.idDvdp p t := by
  rw [val_V hr h] at hV
  rw [val_Ec hr h hV, val_Kt hr h, val_Dpdt hr h, val_Dvdt hr h, val_Dvdp hr h, val_V hr h]
  exact ⟨rfl, rfl, rfl⟩

/-- Region 3: ODPDT is (∂OP/∂T)_v; ODVDP is the reciprocal of (∂OP/∂v)_T. -/
theorem C16_region3_derivatives (t v : ℝ) (hT : 0 < t + 273.15) (hv : 0 < v) :
    HasDerivAt (fun t => valTV Doc.idP t v) (valTV Doc.idDpdt t v) t ∧
    (valTV Doc.idDvdp t v ≠ 0 → HasDerivAt (fun v => valTV Doc.idP t v) (1 / valTV Doc.idDvdp t v) v) := by
  refine ⟨tv_Dpdt hT hv ▸ tv_deriv_t hT hv tv_P (R3.dP_dT hT (by positivity)), fun _ => ?_⟩
  rw [tv_Dvdp hT hv, one_div_one_div]
  exact tv_deriv_v hT hv tv_P (R3.dP_dv hT hv)

/-- Region 3: the coefficients built from them. -/
theorem C16_region3_coefficients (t v : ℝ) (hT : 0 < t + 273.15) (hv : 0 < v) :
    valTV Doc.idDvdt t v = -valTV Doc.idDpdt t v * valTV Doc.idDvdp t v ∧
    valTV Doc.idEc t v = valTV Doc.idDvdt t v / v ∧
    valTV Doc.idKt t v = -valTV Doc.idDvdp t v / v := by
  rw [tv_Dvdt hT hv, tv_Dpdt hT hv, tv_Dvdp hT hv, tv_Ec hT hv, tv_Kt hT hv]
  refine ⟨by ring, by ring, by ring⟩

/-- A concrete state of region 1 with a non-zero volume: 16.53 MPa, 1386/3.222 K (157 °C). -/
example : valPT 1 Doc.idV 16.53 (1386 / 3.222 - 273.15) ≠ 0 := by
  rw [val_V (.inl rfl) ⟨by norm_num, by norm_num, fun _ => by norm_num, fun h => by norm_num at h⟩]
  simp only [Gr_1, Gibbs.V, G1, gasR, poly_i_powi_sum, r1_IJn]
  norm_num

end If97
