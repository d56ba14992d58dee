import Verif.Lemmas.ApiVal

/-!
# C15 Heat capacities are derivatives

Exact arithmetic.  Regions 1, 2, 5: OCP = (∂OH/∂T)_p.  Region 3: OCV = (∂OU/∂T)_ρ, and OCP is the
derivative of OH along the isobar, written with the partial derivatives in (T, v):
(∂h/∂T)_p = (∂h/∂T)_v + (∂h/∂v)_T (∂v/∂T)_p.
-/

namespace If97

theorem C15_cp (r : Int) (hr : GibbsRegion r) (p t : ℝ) (h : Regular r p (t + 273.15)) :
    HasDerivAt (fun t => valPT r Doc.idH p t) (valPT r Doc.idCp p t) t :=
  val_Cp hr h ▸ deriv_t h (val_H hr) (Gibbs.dH_dT (h.smooth hr) h.2.1.ne')

theorem C15_region3_cv (t v : ℝ) (hT : 0 < t + 273.15) (hv : 0 < v) :
    HasDerivAt (fun t => valTV Doc.idU t v) (valTV Doc.idCv t v) t :=
  tv_Cv hT hv ▸ tv_deriv_t hT hv tv_U (R3.dU_dT hT (by positivity))

/-- OCP of region 3: with `ht`, `hv'` the partial derivatives of OH and `pt`, `pv` those of OP in
(t, v), wherever (∂p/∂v)_T ≠ 0, OCP = ht − hv'·pt/pv. -/
theorem C15_region3_cp (t v : ℝ) (hT : 0 < t + 273.15) (hv : 0 < v) (ht hv' pt pv : ℝ)
    (h1 : HasDerivAt (fun t => valTV Doc.idH t v) ht t) (h2 : HasDerivAt (fun v => valTV Doc.idH t v) hv' v)
    (h3 : HasDerivAt (fun t => valTV Doc.idP t v) pt t) (h4 : HasDerivAt (fun v => valTV Doc.idP t v) pv v)
    (hpv : pv ≠ 0) :
    valTV Doc.idCp t v = ht - hv' * pt / pv := by
  have hd : 0 < 1 / v := by positivity
  rw [tv_Cp hT hv, h1.unique (tv_deriv_t hT hv tv_H (R3.dH_dT hT hd)),
    h2.unique (tv_deriv_v hT hv tv_H (R3.dH_dv hT hv)),
    h3.unique (tv_deriv_t hT hv tv_P (R3.dP_dT hT hd))]
  have e := h4.unique (tv_deriv_v hT hv tv_P (R3.dP_dv hT hv))
  rw [e] at hpv ⊢
  have hD : R3.D2 (t + 273.15) (1 / v) ≠ 0 := by
    intro h0; apply hpv; rw [R3.Dpdv, h0]; ring
  have := gasR_ne
  simp only [R3.Cp, R3.Dpdt, R3.Dpdv]
  generalize R3.D2 (t + 273.15) (1 / v) = D at hD ⊢
  generalize R3.B (t + 273.15) (1 / v) = B
  generalize R3.Cv (t + 273.15) (1 / v) = C
  generalize t + 273.15 = T at hT ⊢
  field_simp
  ring

/-- The four partial derivatives used above exist at every state. -/
theorem C15_region3_partials (t v : ℝ) (hT : 0 < t + 273.15) (hv : 0 < v) :
    ∃ ht hv' pt pv, HasDerivAt (fun t => valTV Doc.idH t v) ht t ∧ HasDerivAt (fun v => valTV Doc.idH t v) hv' v ∧
    HasDerivAt (fun t => valTV Doc.idP t v) pt t ∧ HasDerivAt (fun v => valTV Doc.idP t v) pv v :=
  ⟨_, _, _, _, tv_deriv_t hT hv tv_H (R3.dH_dT hT (by positivity)), tv_deriv_v hT hv tv_H (R3.dH_dv hT hv),
    tv_deriv_t hT hv tv_P (R3.dP_dT hT (by positivity)), tv_deriv_v hT hv tv_P (R3.dP_dv hT hv)⟩

/-- A concrete state: 30 MPa, 1500 K, region 5. -/
example : HasDerivAt (fun t => valPT 5 Doc.idH 30 t) (valPT 5 Doc.idCp 30 1226.85) 1226.85 :=
  C15_cp 5 (.inr (.inr rfl)) 30 1226.85 ⟨by norm_num, by norm_num, by norm_num, by norm_num⟩

/-- A concrete state of region 3 with (∂p/∂v)_T ≠ 0: critical density, 647.096/0.9 K. -/
example : ∃ pv, HasDerivAt (fun v => valTV Doc.idP (647.096 / 0.9 - 273.15) v) pv (1 / 322) ∧ pv ≠ 0 := by
  refine ⟨_, tv_deriv_v (by norm_num) (by norm_num) tv_P (R3.dP_dv (by norm_num) (by norm_num)), ?_⟩
  simp only [R3.Dpdv, R3.D2, R3.fd, R3.fdd, R3.xd, R3.yt, gasR, poly_i_powi_sum, poly_ii_powi_sum, r3_IJn, n1]
  norm_num

end If97
