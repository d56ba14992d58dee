import Verif.Props.C18

/-!
# C19 Speed of sound relation

Exact arithmetic: w² = 10⁶ v cp/(cv κ_T) between the returned OW, OV, OCP, OCV, OKT, whenever the
right-hand side is non-negative and the coefficients it divides by are not zero.  It holds in
regions 1, 2, 3.  In region 5 it holds with cv = cp − 1000 T v α²/κ_T (`C19_gibbs`), but not with the
returned OCV (`C19_region5_violated`).
-/

namespace If97

/-- Regions 1, 2, 5, with the isochoric heat capacity written through the other coefficients. -/
theorem C19_gibbs (r : Int) (hr : GibbsRegion r) (p t : ℝ) (h : Regular r p (t + 273.15))
    (hV : valPT r Doc.idV p t ≠ 0) (hK : valPT r Doc.idKt p t ≠ 0) (hC : valPT r Doc.idCp p t ≠ 0) (cv : ℝ)
    (hcv : valPT r Doc.idCp p t - cv =
      1000 * (t + 273.15) * valPT r Doc.idV p t * valPT r Doc.idEc p t ^ 2 / valPT r Doc.idKt p t)
    (h0 : 0 ≤ 1e6 * valPT r Doc.idV p t * valPT r Doc.idCp p t / (cv * valPT r Doc.idKt p t)) :
    valPT r Doc.idW p t ^ 2 = 1e6 * valPT r Doc.idV p t * valPT r Doc.idCp p t / (cv * valPT r Doc.idKt p t) := by
  rw [val_V hr h] at *
  rw [val_Ec hr h hV] at *
  rw [val_Kt hr h] at *
  rw [val_Cp hr h] at *
  have hT := h.2.1
  have hp := h.1
  have hps := (h.smooth hr).ps
  have hR := gasR_pos
  have hg : (Gr r).gpp (p / (Gr r).ps) ((Gr r).Ts / (t + 273.15)) ≠ 0 := by
    intro h0; apply hK; rw [Gibbs.Dvdp, h0]; ring
  have hgp : (Gr r).gp (p / (Gr r).ps) ((Gr r).Ts / (t + 273.15)) ≠ 0 := by
    intro h0; apply hV; rw [Gibbs.V, h0]; ring
  have hgtt : (Gr r).gtt (p / (Gr r).ps) ((Gr r).Ts / (t + 273.15)) ≠ 0 := by
    intro h0; apply hC; rw [Gibbs.Cp, h0]; ring
  have hTs : (Gr r).Ts ≠ 0 := by
    intro h0; apply hC; rw [Gibbs.Cp, h0]; ring
  -- the radicand of the code
  have key : 1e6 * (Gr r).V p (t + 273.15) * (Gr r).Cp p (t + 273.15) /
      (cv * (-(Gr r).Dvdp p (t + 273.15) / (Gr r).V p (t + 273.15))) =
      1000 * gasR * (t + 273.15) * (Gr r).gp (p / (Gr r).ps) ((Gr r).Ts / (t + 273.15)) ^ 2 /
      ((Gr r).B p (t + 273.15) ^ 2 / (((Gr r).Ts / (t + 273.15)) ^ 2 * (Gr r).gtt (p / (Gr r).ps) ((Gr r).Ts / (t + 273.15))) -
        (Gr r).gpp (p / (Gr r).ps) ((Gr r).Ts / (t + 273.15))) := by
    have e : cv = (Gr r).Cp p (t + 273.15) + gasR * (Gr r).B p (t + 273.15) ^ 2 /
        (Gr r).gpp (p / (Gr r).ps) ((Gr r).Ts / (t + 273.15)) := by
      have hcv' := (sub_eq_iff_eq_add.mp hcv)
      rw [eq_sub_iff_add_eq'.mpr hcv'.symm]
      simp only [Gibbs.Dvdt, Gibbs.Dvdp]
      generalize (Gr r).V p (t + 273.15) = V at hV ⊢
      generalize (Gr r).B p (t + 273.15) = B
      generalize (Gr r).gpp (p / (Gr r).ps) ((Gr r).Ts / (t + 273.15)) = g at hg ⊢
      generalize (Gr r).Cp p (t + 273.15) = C
      generalize t + 273.15 = T at hT ⊢
      norm_num
      field_simp
      ring
    rw [e]
    simp only [Gibbs.Dvdp, Gibbs.V, Gibbs.Cp]
    generalize (Gr r).B p (t + 273.15) = B
    generalize (Gr r).gpp (p / (Gr r).ps) ((Gr r).Ts / (t + 273.15)) = g at hg ⊢
    generalize (Gr r).gp (p / (Gr r).ps) ((Gr r).Ts / (t + 273.15)) = gp at hgp ⊢
    generalize (Gr r).gtt (p / (Gr r).ps) ((Gr r).Ts / (t + 273.15)) = gtt at hgtt ⊢
    generalize t + 273.15 = T at hT ⊢
    have hτ : (Gr r).Ts / T ≠ 0 := div_ne_zero hTs hT.ne'
    generalize (Gr r).Ts / T = τ at hτ ⊢
    by_cases hz : B ^ 2 - τ ^ 2 * gtt * g = 0
    · have e1 : -gasR * τ ^ 2 * gtt + gasR * B ^ 2 / g = 0 := by
        rw [sub_eq_zero.mp hz]; field_simp; ring
      have e2 : B ^ 2 / (τ ^ 2 * gtt) - g = 0 := by
        rw [sub_eq_zero.mp hz]; field_simp; ring
      rw [e1, e2]; simp
    · have e1 : -gasR * τ ^ 2 * gtt + gasR * B ^ 2 / g = gasR * (B ^ 2 - τ ^ 2 * gtt * g) / g := by
        field_simp; ring
      have e2 : B ^ 2 / (τ ^ 2 * gtt) - g = (B ^ 2 - τ ^ 2 * gtt * g) / (τ ^ 2 * gtt) := by
        field_simp
      rw [e1, e2]
      generalize B ^ 2 - τ ^ 2 * gtt * g = D at hz ⊢
      norm_num
      field_simp
      norm_num
  rw [key] at h0 ⊢
  rcases hr with rfl | rfl | rfl
  · obtain ⟨X, hX, hw⟩ := V1.Wsq h
    have hw' : valPT 1 Doc.idW p t = pT2w_reg1 p (t + 273.15) := rfl
    have hX' : 1000 * gasR * (t + 273.15) * (Gr 1).gp (p / (Gr 1).ps) ((Gr 1).Ts / (t + 273.15)) ^ 2 /
      ((Gr 1).B p (t + 273.15) ^ 2 / (((Gr 1).Ts / (t + 273.15)) ^ 2 * (Gr 1).gtt (p / (Gr 1).ps) ((Gr 1).Ts / (t + 273.15))) -
        (Gr 1).gpp (p / (Gr 1).ps) ((Gr 1).Ts / (t + 273.15))) =
        (Gr 1).gp (p / (Gr 1).ps) ((Gr 1).Ts / (t + 273.15)) ^ 2 * X := by
      rw [hX]; simp only [Gr_1]; ring
    rw [hX'] at h0 ⊢
    have hX0 : 0 ≤ X := nonneg_of_mul_nonneg_right h0 (by positivity)
    rw [hw', hw, mul_pow, Real.sq_sqrt hX0]; rfl
  · have hw' : valPT 2 Doc.idW p t = pT2w_reg2 p (t + 273.15) := rfl
    rw [hw', V2.W h]; exact Real.sq_sqrt h0
  · have hw' : valPT 5 Doc.idW p t = pT2w_reg5 p (t + 273.15) := rfl
    rw [hw', V5.W h]; exact Real.sq_sqrt h0

/-- Regions 1 and 2, with the returned OCV. -/
theorem C19_regions12_partial (r : Int) (hr : r = 1 ∨ r = 2) (p t : ℝ) (h : Regular r p (t + 273.15))
    (hV : valPT r Doc.idV p t ≠ 0) (hK : valPT r Doc.idKt p t ≠ 0) (hC : valPT r Doc.idCp p t ≠ 0)
    (h0 : 0 ≤ 1e6 * valPT r Doc.idV p t * valPT r Doc.idCp p t / (valPT r Doc.idCv p t * valPT r Doc.idKt p t)) :
    valPT r Doc.idW p t ^ 2 =
      1e6 * valPT r Doc.idV p t * valPT r Doc.idCp p t / (valPT r Doc.idCv p t * valPT r Doc.idKt p t) :=
  C19_gibbs r (by rcases hr with rfl | rfl; exacts [.inl rfl, .inr (.inl rfl)]) p t h hV hK hC _
    (C18_regions12_partial r hr p t h hV) h0

/-- Region 3. -/
theorem C19_region3_partial (t v : ℝ) (hT : 0 < t + 273.15) (hv : 0 < v)
    (hK : valTV Doc.idKt t v ≠ 0) (hC : valTV Doc.idCv t v ≠ 0)
    (h0 : 0 ≤ 1e6 * v * valTV Doc.idCp t v / (valTV Doc.idCv t v * valTV Doc.idKt t v)) :
    valTV Doc.idW t v ^ 2 = 1e6 * v * valTV Doc.idCp t v / (valTV Doc.idCv t v * valTV Doc.idKt t v) := by
  have hd : 0 < 1 / v := by positivity
  rw [tv_Cp hT hv, tv_Cv hT hv, tv_Kt hT hv] at *
  have hR := gasR_pos
  have hD : R3.D2 (t + 273.15) (1 / v) ≠ 0 := by
    intro h0; apply hK; rw [R3.Dpdv, h0]; simp
  have hy : R3.yt (t + 273.15) ≠ 0 := R3.yt0 hT hd
  have hf : R3.ftt (R3.xd (1 / v)) (R3.yt (t + 273.15)) ≠ 0 := by
    intro h0; apply hC; rw [R3.Cv, h0]; ring
  have key : 1e6 * v * R3.Cp (t + 273.15) (1 / v) /
      (R3.Cv (t + 273.15) (1 / v) * (-(1 / v) / R3.Dpdv (t + 273.15) (1 / v))) =
      1000 * gasR * (t + 273.15) * ((1 / v) / 322) *
      (R3.D2 (t + 273.15) (1 / v) - (1 / v) / 322 * (R3.B (t + 273.15) (1 / v)) ^ 2 /
        ((R3.yt (t + 273.15)) ^ 2 * R3.ftt (R3.xd (1 / v)) (R3.yt (t + 273.15)))) := by
    simp only [R3.Cp, R3.Cv, R3.Dpdv]
    generalize R3.D2 (t + 273.15) (1 / v) = D at hD ⊢
    generalize R3.B (t + 273.15) (1 / v) = B
    generalize R3.ftt (R3.xd (1 / v)) (R3.yt (t + 273.15)) = f at hf ⊢
    generalize R3.yt (t + 273.15) = y at hy ⊢
    generalize t + 273.15 = T at hT ⊢
    norm_num
    field_simp
    ring
  rw [key] at h0 ⊢
  rw [tv_W hT hv, R3.vW hT hd, Real.sq_sqrt h0]

private theorem div_inj_right {a x y : ℝ} (ha : a ≠ 0) (h : a / x = a / y) : x = y := by
  rw [div_eq_mul_inv, div_eq_mul_inv] at h
  exact inv_injective (mul_left_cancel₀ ha h)

/-- In region 5 the relation with the returned OCV is false, at 30 MPa and 2000 K. -/
theorem C19_region5_violated :
    valPT 5 Doc.idW 30 1726.85 ^ 2 ≠ 1e6 * valPT 5 Doc.idV 30 1726.85 * valPT 5 Doc.idCp 30 1726.85 /
      (valPT 5 Doc.idCv 30 1726.85 * valPT 5 Doc.idKt 30 1726.85) := by
  have hr : GibbsRegion 5 := .inr (.inr rfl)
  have h : Regular 5 30 (1726.85 + 273.15) := ⟨by norm_num, by norm_num, by norm_num, by norm_num⟩
  have e : (1726.85 : ℝ) + 273.15 = 2000 := by norm_num
  have hR := gasR_pos
  have hV : 0 < valPT 5 Doc.idV 30 1726.85 := by
    rw [val_V hr h, e, Gr_5, Gibbs.V]
    simp only [G5, idealGibbs, poly_i_powi_sum, r5_IJn, gasR]; norm_num
  have hK : 0 < valPT 5 Doc.idKt 30 1726.85 := by
    have hD : (Gr 5).Dvdp 30 (1726.85 + 273.15) < 0 := by
      rw [e, Gr_5, Gibbs.Dvdp]
      simp only [G5, idealGibbs, poly_ii_powi_sum, r5_IJn, gasR]; norm_num
    rw [val_Kt hr h]; rw [val_V hr h] at hV
    exact div_pos (by linarith) hV
  have hC : 0 < valPT 5 Doc.idCp 30 1726.85 := by
    rw [val_Cp hr h, e, Gr_5, Gibbs.Cp]
    simp only [G5, idealGibbs, poly_jj_powi_sum, r5_IJn, idealSum2, r5_no, r5_Jo, nthF, nthI,
      show List.range' 0 6 = [0,1,2,3,4,5] from rfl, gasR]
    norm_num
  have hcv : 0 < valPT 5 Doc.idCp 30 1726.85 -
      1000 * (1726.85 + 273.15) * valPT 5 Doc.idV 30 1726.85 * valPT 5 Doc.idEc 30 1726.85 ^ 2 /
        valPT 5 Doc.idKt 30 1726.85 := by
    have hV' := hV.ne'
    rw [val_V hr h] at *
    rw [val_Cp hr h, val_Ec hr h hV', val_Kt hr h]
    have : 1000 * (1726.85 + 273.15) * (Gr 5).V 30 (1726.85 + 273.15) *
        ((Gr 5).Dvdt 30 (1726.85 + 273.15) / (Gr 5).V 30 (1726.85 + 273.15)) ^ 2 /
        (-(Gr 5).Dvdp 30 (1726.85 + 273.15) / (Gr 5).V 30 (1726.85 + 273.15)) =
        -(1000 * 2000 * (Gr 5).Dvdt 30 2000 ^ 2 / (Gr 5).Dvdp 30 2000) := by
      rw [e] at *
      generalize (Gr 5).V 30 2000 = V at *
      field_simp
    rw [this, e, Gr_5, Gibbs.Cp, Gibbs.Dvdt, Gibbs.Dvdp, Gibbs.B]
    simp only [G5, idealGibbs, poly_i_powi_sum, poly_ii_powi_sum, poly_ij_powi_sum, poly_jj_powi_sum, r5_IJn,
      idealSum2, r5_no, r5_Jo, nthF, nthI, show List.range' 0 6 = [0,1,2,3,4,5] from rfl, gasR]
    norm_num
  have hne := C18_region5_violated.1
  intro hw
  rw [C19_gibbs 5 hr 30 1726.85 h hV.ne' hK.ne' hC.ne' _ (sub_sub_cancel _ _) (by positivity)] at hw
  have h1 := mul_right_cancel₀ hK.ne' (div_inj_right (by positivity) hw)
  apply hne
  rw [← h1]; ring

/-- A concrete state that meets the hypotheses of `C19_region3_partial`: critical density, 647.096/0.9 K. -/
example : valTV Doc.idKt (647.096 / 0.9 - 273.15) (1 / 322) ≠ 0 ∧ 0 < valTV Doc.idCv (647.096 / 0.9 - 273.15) (1 / 322) ∧
    0 ≤ 1e6 * (1 / 322) * valTV Doc.idCp (647.096 / 0.9 - 273.15) (1 / 322) /
      (valTV Doc.idCv (647.096 / 0.9 - 273.15) (1 / 322) * valTV Doc.idKt (647.096 / 0.9 - 273.15) (1 / 322)) := by
  have hT : (0 : ℝ) < 647.096 / 0.9 - 273.15 + 273.15 := by norm_num
  have hv : (0 : ℝ) < 1 / 322 := by norm_num
  have hK : 0 < valTV Doc.idKt (647.096 / 0.9 - 273.15) (1 / 322) := by
    rw [tv_Kt hT hv]
    simp only [R3.Dpdv, R3.D2, R3.fd, R3.fdd, R3.xd, R3.yt, gasR, poly_i_powi_sum, poly_ii_powi_sum, r3_IJn, n1]
    norm_num
  have hC : 0 < valTV Doc.idCv (647.096 / 0.9 - 273.15) (1 / 322) := by
    rw [tv_Cv hT hv]
    simp only [R3.Cv, R3.ftt, R3.xd, R3.yt, gasR, poly_jj_powi_sum, r3_IJn]
    norm_num
  have h18 := C18_region3_partial _ _ hT hv
  have hP : 0 < valTV Doc.idCp (647.096 / 0.9 - 273.15) (1 / 322) := by
    have : 0 ≤ 1000 * (647.096 / 0.9 - 273.15 + 273.15) * (1 / 322) * valTV Doc.idEc (647.096 / 0.9 - 273.15) (1 / 322) ^ 2 /
      valTV Doc.idKt (647.096 / 0.9 - 273.15) (1 / 322) := by positivity
    linarith
  exact ⟨hK.ne', hC, by positivity⟩

end If97
