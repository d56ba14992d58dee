import Verif.Lemmas.ApiVal

/-!
# C18 cp − cv relation

Exact arithmetic: cp − cv = 1000 T v α²/κ_T between the returned OCP, OCV, OV, OEC, OKT.
It holds in regions 1, 2, 3.  It fails in region 5: `C18_region5_actual` is what the code
computes there and `C18_region5_violated` a state of region 5 where the relation is false.
-/

namespace If97

/-- Regions 1 and 2. -/
theorem C18_regions12_partial (r : Int) (hr : r = 1 ∨ r = 2) (p t : ℝ) (h : Regular r p (t + 273.15))
    (hV : valPT r Doc.idV p t ≠ 0) :
    valPT r Doc.idCp p t - valPT r Doc.idCv p t =
    1000 * (t + 273.15) * valPT r Doc.idV p t * valPT r Doc.idEc p t ^ 2 / valPT r Doc.idKt p t := by
  have hr' : GibbsRegion r := by rcases hr with rfl | rfl; exacts [.inl rfl, .inr (.inl rfl)]
  have hCv : valPT r Doc.idCv p t = (Gr r).Cv p (t + 273.15) := by
    rcases hr with rfl | rfl; exacts [val_Cv1 h, val_Cv2 h]
  rw [val_V hr' h] at hV ⊢
  rw [hCv, val_Cp hr' h, val_Ec hr' h hV, val_Kt hr' h, Gibbs.Cv]
  have hT := h.2.1
  have hps := (h.smooth hr').ps
  have := gasR_ne
  simp only [Gibbs.Dvdt, Gibbs.Dvdp]
  generalize (Gr r).V p (t + 273.15) = V at hV ⊢
  generalize (Gr r).B p (t + 273.15) = B
  generalize (Gr r).gpp (p / (Gr r).ps) ((Gr r).Ts / (t + 273.15)) = g
  generalize (Gr r).Cp p (t + 273.15) = C
  generalize t + 273.15 = T at hT ⊢
  field_simp
  norm_num
  ring

/-- Region 3. -/
theorem C18_region3_partial (t v : ℝ) (hT : 0 < t + 273.15) (hv : 0 < v) :
    valTV Doc.idCp t v - valTV Doc.idCv t v =
    1000 * (t + 273.15) * v * valTV Doc.idEc t v ^ 2 / valTV Doc.idKt t v := by
  rw [tv_Cp hT hv, tv_Cv hT hv, tv_Ec hT hv, tv_Kt hT hv, R3.Cp]
  have := gasR_ne
  simp only [R3.Dpdt, R3.Dpdv]
  generalize R3.D2 (t + 273.15) (1 / v) = D
  generalize R3.B (t + 273.15) (1 / v) = B
  generalize R3.Cv (t + 273.15) (1 / v) = C
  generalize t + 273.15 = T at hT ⊢
  field_simp
  norm_num
  ring

/-- What region 5 returns instead: OCP is divided by c = p·OZ·OKT before the (correct) difference
is subtracted. -/
theorem C18_region5_actual (p t : ℝ) (h : Regular 5 p (t + 273.15))
    (hV : valPT 5 Doc.idV p t ≠ 0) (hK : valPT 5 Doc.idKt p t ≠ 0) :
    valPT 5 Doc.idCv p t =
    valPT 5 Doc.idCp p t / (p * (1000 * p * valPT 5 Doc.idV p t / (gasR * (t + 273.15))) * valPT 5 Doc.idKt p t) -
    1000 * (t + 273.15) * valPT 5 Doc.idV p t * valPT 5 Doc.idEc p t ^ 2 / valPT 5 Doc.idKt p t := by
  have hr : GibbsRegion 5 := .inr (.inr rfl)
  rw [val_V hr h] at hV ⊢
  rw [val_Kt hr h] at hK ⊢
  rw [val_Cp hr h, val_Ec hr h hV, val_Cv5 h]
  have hT := h.2.1
  have hp := h.1
  have := gasR_ne
  have hps : (Gr 5).ps = 1 := rfl
  have hps' : G5.ps = 1 := rfl
  simp only [Gr_5] at *
  have hg : G5.gpp (p / G5.ps) (G5.Ts / (t + 273.15)) ≠ 0 := by
    intro h0; apply hK; rw [Gibbs.Dvdp, h0]; ring
  have hgp : G5.gp (p / G5.ps) (G5.Ts / (t + 273.15)) ≠ 0 := by
    intro h0; apply hV; rw [Gibbs.V, h0]; ring
  simp only [Gibbs.Dvdt, Gibbs.Dvdp, Gibbs.V] at hK hV ⊢
  rw [hps'] at *
  generalize G5.gp (p / 1) (G5.Ts / (t + 273.15)) = gp at *
  generalize G5.B p (t + 273.15) = B
  generalize G5.gpp (p / 1) (G5.Ts / (t + 273.15)) = g at *
  generalize G5.Cp p (t + 273.15) = C
  generalize t + 273.15 = T at *
  field_simp
  ring

/-- The relation is false in region 5, at 30 MPa and 2000 K. -/
theorem C18_region5_violated :
    valPT 5 Doc.idCp 30 1726.85 - valPT 5 Doc.idCv 30 1726.85 ≠
    1000 * (1726.85 + 273.15) * valPT 5 Doc.idV 30 1726.85 * valPT 5 Doc.idEc 30 1726.85 ^ 2 /
      valPT 5 Doc.idKt 30 1726.85 ∧
    pT_sub_region (30 : ℝ) (1726.85 + 273.15) = 5 := by
  have hr : GibbsRegion 5 := .inr (.inr rfl)
  have h : Regular 5 30 (1726.85 + 273.15) := ⟨by norm_num, by norm_num, by norm_num, by norm_num⟩
  constructor
  · have e : (1726.85 : ℝ) + 273.15 = 2000 := by norm_num
    have hV : G5.gp (30 / 1) (1000 / 2000) ≠ 0 := by
      simp only [G5, idealGibbs, poly_i_powi_sum, r5_IJn]; norm_num
    have hg : G5.gpp (30 / 1) (1000 / 2000) ≠ 0 := by
      simp only [G5, idealGibbs, poly_ii_powi_sum, r5_IJn]; norm_num
    have hc : 30 ^ 2 * G5.gpp (30 / 1) (1000 / 2000) ≠ -1 := by
      simp only [G5, idealGibbs, poly_ii_powi_sum, r5_IJn]; norm_num
    have hC : G5.Cp 30 2000 ≠ 0 := by
      have : G5.gtt (30 / 1) (1000 / 2000) ≠ 0 := by
        simp only [G5, idealGibbs, poly_jj_powi_sum, r5_IJn, idealSum2, r5_no, r5_Jo, nthF, nthI,
          show List.range' 0 6 = [0,1,2,3,4,5] from rfl]
        norm_num
      have := gasR_ne
      simp only [Gibbs.Cp, G5, idealGibbs] at *
      norm_num at *
      tauto
    have hVV : (Gr 5).V 30 (1726.85 + 273.15) ≠ 0 := by
      rw [e, Gr_5, Gibbs.V]
      have := gasR_ne
      simp only [G5, idealGibbs] at *
      norm_num at *
      tauto
    rw [val_Cp hr h, val_Cv5 h, val_V hr h, val_Ec hr h hVV, val_Kt hr h]
    simp only [Gr_5, e] at hVV ⊢
    simp only [Gibbs.Dvdt, Gibbs.Dvdp]
    have hps : G5.ps = 1 := rfl
    have hts : G5.Ts = 1000 := rfl
    rw [hps, hts] at *
    generalize G5.V 30 2000 = V at *
    generalize G5.Cp 30 2000 = C at *
    generalize G5.B 30 2000 = B at *
    generalize G5.gpp (30 / 1) (1000 / 2000) = g at *
    have := gasR_ne
    intro h0
    field_simp at h0
    norm_num at h0
    apply hc
    have : C * (900 * g + 1) = 0 := by linarith
    rcases mul_eq_zero.mp this with h | h
    · exact absurd h hC
    · linarith
  · simp only [pT_sub_region]
    norm_num [P_MIN, TC_WATER]

end If97
