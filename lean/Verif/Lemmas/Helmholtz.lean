import Verif.Lemmas.Gibbs

/-! Helper lemmas for C13-C22: region 3 in terms of its dimensionless Helmholtz function. -/

namespace If97
namespace R3
set_option linter.unusedSectionVars false

/-- φ and its derivatives -/
noncomputable def f (x y : ℝ) : ℝ := n1 * Real.log x + poly_powi x y r3_IJn
noncomputable def fd (x y : ℝ) : ℝ := n1 / x + poly_i_powi x y r3_IJn
noncomputable def fdd (x y : ℝ) : ℝ := -n1 / x / x + poly_ii_powi x y r3_IJn
noncomputable def ft (x y : ℝ) : ℝ := poly_j_powi x y r3_IJn
noncomputable def ftt (x y : ℝ) : ℝ := poly_jj_powi x y r3_IJn
noncomputable def fdt (x y : ℝ) : ℝ := poly_ij_powi x y r3_IJn

section
variable {x y : ℝ} (hx : x ≠ 0) (hy : y ≠ 0)
include hx
theorem d_f_x : HasDerivAt (fun x => f x y) (fd x y) x := by
  have := ((Real.hasDerivAt_log hx).const_mul n1).add (C11_i r3_IJn x y (.inl hx))
  exact this.congr_deriv (by simp [fd, div_eq_mul_inv])
theorem d_fd_x : HasDerivAt (fun x => fd x y) (fdd x y) x := by
  have h1 : HasDerivAt (fun x : ℝ => n1 / x) (-n1 / x / x) x := by
    have := (hasDerivAt_inv hx).const_mul (n1 : ℝ)
    refine (this.congr_of_eventuallyEq (Filter.Eventually.of_forall fun x => div_eq_mul_inv _ _)).congr_deriv ?_
    field_simp
  exact h1.add (C11_ii r3_IJn x y (.inl hx))
theorem d_ft_x : HasDerivAt (fun x => ft x y) (fdt x y) x := C11_ji r3_IJn x y (.inl hx)
omit hx
include hy
theorem d_f_y : HasDerivAt (fun y => f x y) (ft x y) y :=
  ((C11_j r3_IJn x y (.inl hy)).const_add (n1 * Real.log x)).congr_deriv rfl
theorem d_fd_y : HasDerivAt (fun y => fd x y) (fdt x y) y :=
  ((C11_ij r3_IJn x y (.inl hy)).const_add (n1 / x)).congr_deriv rfl
theorem d_ft_y : HasDerivAt (fun y => ft x y) (ftt x y) y := C11_jj r3_IJn x y (.inl hy)
end

section
variable (x y : ℝ)
theorem phi : phi_reg3 x y = f x y := (C09_region3 x y).1
theorem phid : phi_delta_reg3 x y = fd x y := (C09_region3 x y).2.1
theorem phidd : phi_deltadelta_reg3 x y = fdd x y := (C09_region3 x y).2.2.1
theorem phit : phi_tau_reg3 x y = ft x y := (C09_region3 x y).2.2.2.1
theorem phitt : phi_tautau_reg3 x y = ftt x y := (C09_region3 x y).2.2.2.2
variable (hx : x ≠ 0) (hy : y ≠ 0)
include hy
theorem phi_0_j : polys_0_j_powi_reg3 x y = (f x y, ft x y) := by
  unfold polys_0_j_powi_reg3; rw [C10_0_j_steps _ _ _ _ rfl hy]; simp only [f, ft]
  exact Prod.ext (add_comm _ _) rfl
include hx
theorem phidt : phi_deltatau_reg3 x y = fdt x y := C10_ij_steps _ _ _ _ rfl hx hy
theorem phi_i_j : polys_i_j_powi_reg3 x y = (fd x y, ft x y) := by
  unfold polys_i_j_powi_reg3; rw [C10_i_j_steps _ _ _ _ rfl hx hy]; simp only [fd, ft]
  exact Prod.ext (add_comm _ _) rfl
theorem phi_4 : polys_i_ii_ij_jj_powi_reg3 x y = (fd x y, fdd x y, fdt x y, ftt x y) := by
  unfold polys_i_ii_ij_jj_powi_reg3; rw [C10_i_ii_ij_jj_steps _ _ _ _ rfl hx hy]; rfl
end

variable (T d : ℝ)
/-- reduced variables -/
noncomputable def xd : ℝ := d / 322
noncomputable def yt : ℝ := 647.096 / T

private theorem RG : (RGAS_WATER : ℝ) = gasR := rfl
private theorem TC : (TC_WATER : ℝ) / T = yt T := rfl
private theorem DC : d / (DC_WATER : ℝ) = xd d := by unfold DC_WATER xd; norm_num

noncomputable def P : ℝ := 0.001 * gasR * T * d ^ 2 / 322 * fd (xd d) (yt T)
noncomputable def U : ℝ := gasR * 647.096 * ft (xd d) (yt T)
noncomputable def S : ℝ := gasR * (yt T * ft (xd d) (yt T) - f (xd d) (yt T))
noncomputable def Fh : ℝ := gasR * T * f (xd d) (yt T)
noncomputable def H : ℝ := gasR * (647.096 * ft (xd d) (yt T) + T * d / 322 * fd (xd d) (yt T))
noncomputable def Gf : ℝ := gasR * T * (f (xd d) (yt T) + d / 322 * fd (xd d) (yt T))
noncomputable def Cv : ℝ := -gasR * (yt T) ^ 2 * ftt (xd d) (yt T)
/-- 2φ_δ + δφ_δδ -/
noncomputable def D2 : ℝ := 2 * fd (xd d) (yt T) + d / 322 * fdd (xd d) (yt T)
/-- φ_δ − τφ_δτ -/
noncomputable def B : ℝ := fd (xd d) (yt T) - yt T * fdt (xd d) (yt T)
noncomputable def Cp : ℝ := Cv T d + gasR * (d / 322) * (B T d) ^ 2 / D2 T d
noncomputable def Dpdt : ℝ := 0.001 * gasR * d ^ 2 / 322 * B T d
/-- (∂p/∂v)_T -/
noncomputable def Dpdv : ℝ := -(0.001 * gasR * T * d ^ 3 / 322 * D2 T d)

variable {T d} (hT : 0 < T) (hd : 0 < d)
include hT hd

theorem xd0 : xd d ≠ 0 := by unfold xd; positivity
theorem yt0 : yt T ≠ 0 := by unfold yt; positivity

theorem vP : Td2p_reg3 T d = P T d := by
  simp only [Td2p_reg3, P, RG, TC, DC, phid]; unfold xd; field_simp
theorem vU : Td2u_reg3 T d = U T d := by
  simp only [Td2u_reg3, U, RG, TC, DC, phit]; unfold yt; field_simp
theorem vS : Td2s_reg3 T d = S T d := by
  simp only [Td2s_reg3, S, RG, TC, DC, phi_0_j _ _ (yt0 hT hd)]
theorem vH : Td2h_reg3 T d = H T d := by
  simp only [Td2h_reg3, H, RG, TC, DC, phi_i_j _ _ (xd0 hT hd) (yt0 hT hd)]; unfold xd yt; field_simp
theorem vF : Td2f_reg3 T d = Fh T d := by
  simp only [Td2f_reg3, Fh, RG, TC, DC, phi]
theorem vG : Td2g_reg3 T d = Gf T d := by
  simp only [Td2g_reg3, Gf, RG, TC, DC, phi, phid]; rfl
theorem vCv : Td2cv_reg3 T d = Cv T d := by
  simp only [Td2cv_reg3, Cv, RG, TC, DC, phitt]; ring
theorem vCp : Td2cp_reg3 T d = Cp T d := by
  have hx := xd0 hT hd
  have e : d / 322 = xd d := rfl
  simp only [Td2cp_reg3, Cp, Cv, B, D2, RG, TC, DC, phi_4 _ _ (xd0 hT hd) (yt0 hT hd), e,
    show (2.0 : ℝ) = 2 by norm_num]
  field_simp
theorem vDpdt : Td2dpdtcv_reg3 T d = Dpdt T d := by
  simp only [Td2dpdtcv_reg3, Dpdt, B, RG, TC, DC, phid, phidt _ _ (xd0 hT hd) (yt0 hT hd)]
  unfold xd; ring
theorem vDvdp : Td2dvdpct_reg3 T d = 1 / Dpdv T d := by
  have := gasR_ne
  have e : d / 322 = xd d := rfl
  simp only [Td2dvdpct_reg3, Dpdv, D2, RG, TC, DC, phid, phidd, e, show (2.0 : ℝ) = 2 by norm_num]
  generalize 2 * fd (xd d) (yt T) + xd d * fdd (xd d) (yt T) = D
  unfold DC_WATER
  norm_num
  field_simp
  norm_num
theorem vDvdt : Td2dvdtcp_reg3 T d = -Dpdt T d / Dpdv T d := by
  have := gasR_ne
  have e : d / 322 = xd d := rfl
  simp only [Td2dvdtcp_reg3, Dpdv, Dpdt, D2, B, RG, TC, DC, phid, phidd, phidt _ _ (xd0 hT hd) (yt0 hT hd),
    e, show (2.0 : ℝ) = 2 by norm_num]
  generalize 2 * fd (xd d) (yt T) + xd d * fdd (xd d) (yt T) = D
  field_simp
theorem vKt : Td2kt_reg3 T d = -d / Dpdv T d := by
  simp only [Td2kt_reg3, vDvdp hT hd]; ring
theorem vEc : Td2ec_reg3 T d = d * (-Dpdt T d / Dpdv T d) := by
  simp only [Td2ec_reg3, vDvdt hT hd]
theorem vJtc : Td2joule_reg3 T d = 1000 / d / Cp T d * (T * (d * (-Dpdt T d / Dpdv T d)) - 1) := by
  have := gasR_ne
  have hx := xd0 hT hd
  have e : d / 322 = xd d := rfl
  have hc : RGAS_WATER * (-1.0 * yt T * yt T * ftt (xd d) (yt T) +
      xd d * (fd (xd d) (yt T) - yt T * fdt (xd d) (yt T)) * (xd d * (fd (xd d) (yt T) - yt T * fdt (xd d) (yt T))) /
        (xd d * (2 * fd (xd d) (yt T) + xd d * fdd (xd d) (yt T)))) = Cp T d := by
    simp only [Cp, Cv, B, D2, RG, e]
    norm_num
    field_simp
  have hv := vDvdt hT hd
  simp only [Td2dvdtcp_reg3, TC, DC, phid, phidd, phidt _ _ (xd0 hT hd) (yt0 hT hd),
    show (2.0 : ℝ) = 2 by norm_num] at hv
  simp only [Td2joule_reg3, TC, DC, phid, phidd, phitt, phidt _ _ (xd0 hT hd) (yt0 hT hd),
    show (2.0 : ℝ) = 2 by norm_num, hc, ← hv]
  norm_num
  field_simp
theorem vIjtc : Td2iJTC_reg3 T d = -Cp T d * Td2joule_reg3 T d / 1000 := by
  simp only [Td2iJTC_reg3, vCp hT hd]; norm_num
theorem vE : Td2e_reg3 T d = H T d - 273.16 * S T d + gasR * (T - 273.16) * (1 - yt T) * f (xd d) (yt T) := by
  simp only [Td2e_reg3, H, S, RG, TC, DC, phi, phid, phit, Tt]
  have : (647.096 : ℝ) = T * yt T := by unfold yt; field_simp
  rw [this]; unfold xd; ring
theorem vW : Td2w_reg3 T d = Real.sqrt (1000 * gasR * T * (d / 322) *
    (D2 T d - d / 322 * (B T d) ^ 2 / ((yt T) ^ 2 * ftt (xd d) (yt T)))) := by
  have e : d / 322 = xd d := rfl
  simp only [Td2w_reg3, D2, B, RG, TC, DC, phi_4 _ _ (xd0 hT hd) (yt0 hT hd), e, fsqrt, real_sqrt,
    show (2.0 : ℝ) = 2 by norm_num]
  congr 1
  norm_num
  ring

/-! ### derivatives with respect to T at constant d -/

theorem hyt : HasDerivAt yt (-(yt T / T)) T := by
  have := ((hasDerivAt_const T (647.096 : ℝ)).div (hasDerivAt_id T) hT.ne')
  refine this.congr_deriv ?_
  unfold yt; simp only [id]; field_simp; ring

theorem comp_T {g : ℝ → ℝ} {g' : ℝ} (h : HasDerivAt g g' (yt T)) :
    HasDerivAt (fun T => g (yt T)) (g' * -(yt T / T)) T := h.comp T (hyt hT hd)

theorem dF_dT : HasDerivAt (fun T => Fh T d) (-S T d) T := by
  have h := ((hasDerivAt_id T).const_mul gasR).mul (comp_T hT hd (d_f_y (x := xd d) (yt0 hT hd)))
  refine h.congr_deriv ?_
  unfold S; simp only [id]; field_simp; ring
theorem dU_dT : HasDerivAt (fun T => U T d) (Cv T d) T := by
  have h := (comp_T hT hd (d_ft_y (x := xd d) (yt0 hT hd))).const_mul (gasR * 647.096)
  refine h.congr_deriv ?_
  unfold Cv; unfold yt; field_simp
theorem dP_dT : HasDerivAt (fun T => P T d) (Dpdt T d) T := by
  have h := (((hasDerivAt_id T).const_mul (0.001 * gasR)).mul_const (d ^ 2)).div_const 322 |>.mul
    (comp_T hT hd (d_fd_y (x := xd d) (yt0 hT hd)))
  refine h.congr_deriv ?_
  unfold Dpdt B; simp only [id]; field_simp; ring
theorem dH_dT : HasDerivAt (fun T => H T d) (Cv T d + 1000 / d * Dpdt T d) T := by
  have h1 := (comp_T hT hd (d_ft_y (x := xd d) (yt0 hT hd))).const_mul 647.096
  have h2 := (((hasDerivAt_id T).mul_const d).div_const 322).mul (comp_T hT hd (d_fd_y (x := xd d) (yt0 hT hd)))
  refine ((h1.add h2).const_mul gasR).congr_deriv ?_
  have : (647.096 : ℝ) = T * yt T := by unfold yt; field_simp
  rw [this]
  unfold Cv Dpdt B; simp only [id]; norm_num; field_simp; ring

end R3

/-! ### derivatives with respect to v = 1/d at constant T -/
namespace R3
variable {T v : ℝ} (hT : 0 < T) (hv : 0 < v)
include hv

theorem hxv : HasDerivAt (fun v : ℝ => xd (1 / v)) (-(xd (1 / v) / v)) v := by
  have := ((hasDerivAt_inv hv.ne').div_const 322)
  refine (this.congr_of_eventuallyEq (Filter.Eventually.of_forall fun v => by unfold xd; simp)).congr_deriv ?_
  unfold xd; field_simp
theorem comp_v {g : ℝ → ℝ} {g' : ℝ} (h : HasDerivAt g g' (xd (1 / v))) :
    HasDerivAt (fun v => g (xd (1 / v))) (g' * -(xd (1 / v) / v)) v := h.comp v (hxv hv)
include hT
theorem x0 : xd (1 / v) ≠ 0 := xd0 hT (by positivity)

theorem dF_dv : HasDerivAt (fun v => Fh T (1 / v)) (-(1000 * P T (1 / v))) v := by
  have h := (comp_v hv (d_f_x (y := yt T) (x0 hT hv))).const_mul (gasR * T)
  refine h.congr_deriv ?_
  have e : xd (1 / v) / v = 1 / 322 / v ^ 2 := by unfold xd; field_simp
  unfold P; rw [e]; field_simp; ring
theorem dS_dv : HasDerivAt (fun v => S T (1 / v)) (1000 * Dpdt T (1 / v)) v := by
  have h := (((comp_v hv (d_ft_x (y := yt T) (x0 hT hv))).const_mul (yt T)).sub
    (comp_v hv (d_f_x (y := yt T) (x0 hT hv)))).const_mul gasR
  refine h.congr_deriv ?_
  have e : xd (1 / v) / v = 1 / 322 / v ^ 2 := by unfold xd; field_simp
  unfold Dpdt B; rw [e]; norm_num; field_simp; ring
theorem dP_dv : HasDerivAt (fun v => P T (1 / v)) (Dpdv T (1 / v)) v := by
  have hsq : HasDerivAt (fun v : ℝ => (1 / v) ^ 2) (-2 / v ^ 3) v := by
    have := (hasDerivAt_inv hv.ne').pow 2
    refine (this.congr_of_eventuallyEq (Filter.Eventually.of_forall fun v => by simp)).congr_deriv ?_
    simp; field_simp
  have h := ((hsq.const_mul (0.001 * gasR * T)).div_const 322).mul (comp_v hv (d_fd_x (y := yt T) (x0 hT hv)))
  refine h.congr_deriv ?_
  have e : xd (1 / v) / v = 1 / 322 / v ^ 2 := by unfold xd; field_simp
  unfold Dpdv D2; simp only [e]; field_simp; ring
theorem dH_dv : HasDerivAt (fun v => H T (1 / v)) (1000 * v * Dpdv T (1 / v) + 1000 * T * Dpdt T (1 / v)) v := by
  have hi : HasDerivAt (fun v : ℝ => T * (1 / v) / 322) (-(T / v ^ 2 / 322)) v := by
    have := ((hasDerivAt_inv hv.ne').const_mul T).div_const 322
    refine (this.congr_of_eventuallyEq (Filter.Eventually.of_forall fun v => by simp)).congr_deriv ?_
    field_simp
  have h := (((comp_v hv (d_ft_x (y := yt T) (x0 hT hv))).const_mul 647.096).add
    (hi.mul (comp_v hv (d_fd_x (y := yt T) (x0 hT hv))))).const_mul gasR
  refine h.congr_deriv ?_
  have e : xd (1 / v) / v = 1 / 322 / v ^ 2 := by unfold xd; field_simp
  have : (647.096 : ℝ) = T * yt T := by unfold yt; field_simp
  unfold Dpdv D2 Dpdt B; rw [e, this]; norm_num; field_simp; ring

end R3
end If97
