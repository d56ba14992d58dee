import Verif.Lemmas.Helmholtz

/-! Helper lemmas for C12-C22: the public calls in terms of the Gibbs/Helmholtz functions. -/

namespace If97
open Filter Topology

section
variable {r : Int} {p t : ℝ} (hr : GibbsRegion r) (h : Regular r p (t + 273.15))
include hr h

theorem val_V : valPT r Doc.idV p t = (Gr r).V p (t + 273.15) := by
  rcases hr with rfl | rfl | rfl; exacts [V1.V h, V2.V h, V5.V h]
theorem val_D : valPT r Doc.idD p t = 1.0 / (Gr r).V p (t + 273.15) := by
  rw [← val_V hr h]; rcases hr with rfl | rfl | rfl <;> rfl
theorem val_H : valPT r Doc.idH p t = (Gr r).H p (t + 273.15) := by
  rcases hr with rfl | rfl | rfl; exacts [V1.H h, V2.H h, V5.H h]
theorem val_S : valPT r Doc.idS p t = (Gr r).S p (t + 273.15) := by
  rcases hr with rfl | rfl | rfl; exacts [V1.S h, V2.S h, V5.S h]
theorem val_U : valPT r Doc.idU p t = (Gr r).U p (t + 273.15) := by
  rcases hr with rfl | rfl | rfl; exacts [V1.U h, V2.U h, V5.U h]
theorem val_G : valPT r Doc.idG p t = (Gr r).Gf p (t + 273.15) := by
  rcases hr with rfl | rfl | rfl; exacts [V1.Gf h, V2.Gf h, V5.Gf h]
theorem val_F : valPT r Doc.idF p t = (Gr r).Ff p (t + 273.15) := by
  rcases hr with rfl | rfl | rfl; exacts [V1.Ff h, V2.Ff h, V5.Ff h]
theorem val_Cp : valPT r Doc.idCp p t = (Gr r).Cp p (t + 273.15) := by
  rcases hr with rfl | rfl | rfl; exacts [V1.Cp h, V2.Cp h, V5.Cp h]
theorem val_Dvdt : valPT r Doc.idDvdt p t = (Gr r).Dvdt p (t + 273.15) := by
  rcases hr with rfl | rfl | rfl; exacts [V1.Dvdt h, V2.Dvdt h, V5.Dvdt h]
theorem val_Dvdp : valPT r Doc.idDvdp p t = (Gr r).Dvdp p (t + 273.15) := by
  rcases hr with rfl | rfl | rfl; exacts [V1.Dvdp h, V2.Dvdp h, V5.Dvdp h]
theorem val_Kt : valPT r Doc.idKt p t = -(Gr r).Dvdp p (t + 273.15) / (Gr r).V p (t + 273.15) := by
  rcases hr with rfl | rfl | rfl; exacts [V1.Kt h, V2.Kt h, V5.Kt h]
theorem val_Dpdt : valPT r Doc.idDpdt p t = -(Gr r).Dvdt p (t + 273.15) / (Gr r).Dvdp p (t + 273.15) := by
  rcases hr with rfl | rfl | rfl; exacts [V1.Dpdt h, V2.Dpdt h, V5.Dpdt h]
theorem val_Ijtc : valPT r Doc.idIJtc p t = 0.001 * (Gr r).Dhdp p (t + 273.15) := by
  rcases hr with rfl | rfl | rfl; exacts [V1.Ijtc h, V2.Ijtc h, V5.Ijtc h]
theorem val_E : valPT r Doc.idE p t = (Gr r).H p (t + 273.15) - 273.16 * (Gr r).S p (t + 273.15) := by
  rcases hr with rfl | rfl | rfl; exacts [V1.E h, V2.E h, V5.E h]

variable (hV : (Gr r).V p (t + 273.15) ≠ 0)
include hV
theorem val_Ec : valPT r Doc.idEc p t = (Gr r).Dvdt p (t + 273.15) / (Gr r).V p (t + 273.15) := by
  rcases hr with rfl | rfl | rfl; exacts [V1.Ec h hV, V2.Ec h, V5.Ec h]
theorem val_Jtc : valPT r Doc.idJtc p t = -(Gr r).Dhdp p (t + 273.15) / (Gr r).Cp p (t + 273.15) := by
  rcases hr with rfl | rfl | rfl; exacts [V1.Jtc h hV, V2.Jtc h hV, V5.Jtc h hV]
end

theorem val_Cv1 {p t : ℝ} (h : Regular 1 p (t + 273.15)) : valPT 1 Doc.idCv p t = G1.Cv p (t + 273.15) := V1.Cv h
theorem val_Cv2 {p t : ℝ} (h : Regular 2 p (t + 273.15)) : valPT 2 Doc.idCv p t = G2.Cv p (t + 273.15) := V2.Cv h
theorem val_Cv5 {p t : ℝ} (h : Regular 5 p (t + 273.15)) : valPT 5 Doc.idCv p t =
    (G5.Cp p (t + 273.15) - gasR * (p * G5.B p (t + 273.15)) ^ 2) /
    (-(p ^ 2 * G5.gpp (p / G5.ps) (G5.Ts / (t + 273.15)))) := V5.CvBug h

section
variable {r : Int} {p t : ℝ} (h : Regular r p (t + 273.15)) {o : Int} {X : ℝ → ℝ → ℝ}
  (e : ∀ {p t}, Regular r p (t + 273.15) → valPT r o p t = X p (t + 273.15)) {D : ℝ}
include h e

theorem deriv_p (hd : HasDerivAt (fun p => X p (t + 273.15)) D p) : HasDerivAt (fun p => valPT r o p t) D p :=
  hd.congr_of_eventuallyEq (h.eventually_p.mono fun _ h => e h)

theorem deriv_t (hd : HasDerivAt (fun T => X p T) D (t + 273.15)) : HasDerivAt (fun t => valPT r o p t) D t :=
  (hd.comp_add_const t 273.15).congr_of_eventuallyEq (h.eventually_t.mono fun _ h => e h)
end

/-! ### region 3 through `tv` -/
section
variable {t v : ℝ} (hT : 0 < t + 273.15) (hv : 0 < v)
include hT hv

private theorem hd : (0 : ℝ) < 1 / v := by positivity
private theorem one : (1.0 : ℝ) / v = 1 / v := by norm_num

theorem tv_D : valTV Doc.idD t v = 1 / v := one hT hv
theorem tv_P : valTV Doc.idP t v = R3.P (t + 273.15) (1 / v) := by
  rw [← R3.vP hT (hd hT hv), ← one hT hv]; rfl
theorem tv_H : valTV Doc.idH t v = R3.H (t + 273.15) (1 / v) := by
  rw [← R3.vH hT (hd hT hv), ← one hT hv]; rfl
theorem tv_S : valTV Doc.idS t v = R3.S (t + 273.15) (1 / v) := by
  rw [← R3.vS hT (hd hT hv), ← one hT hv]; rfl
theorem tv_U : valTV Doc.idU t v = R3.U (t + 273.15) (1 / v) := by
  rw [← R3.vU hT (hd hT hv), ← one hT hv]; rfl
theorem tv_F : valTV Doc.idF t v = R3.Fh (t + 273.15) (1 / v) := by
  rw [← R3.vF hT (hd hT hv), ← one hT hv]; rfl
theorem tv_G : valTV Doc.idG t v = R3.Gf (t + 273.15) (1 / v) := by
  rw [← R3.vG hT (hd hT hv), ← one hT hv]; rfl
theorem tv_Cv : valTV Doc.idCv t v = R3.Cv (t + 273.15) (1 / v) := by
  rw [← R3.vCv hT (hd hT hv), ← one hT hv]; rfl
theorem tv_Cp : valTV Doc.idCp t v = R3.Cp (t + 273.15) (1 / v) := by
  rw [← R3.vCp hT (hd hT hv), ← one hT hv]; rfl
theorem tv_W : valTV Doc.idW t v = Td2w_reg3 (t + 273.15) (1 / v) := by
  rw [← one hT hv]; rfl
theorem tv_Dpdt : valTV Doc.idDpdt t v = R3.Dpdt (t + 273.15) (1 / v) := by
  rw [← R3.vDpdt hT (hd hT hv), ← one hT hv]; rfl
theorem tv_Dvdp : valTV Doc.idDvdp t v = 1 / R3.Dpdv (t + 273.15) (1 / v) := by
  rw [← R3.vDvdp hT (hd hT hv), ← one hT hv]; rfl
theorem tv_Dvdt : valTV Doc.idDvdt t v = -R3.Dpdt (t + 273.15) (1 / v) / R3.Dpdv (t + 273.15) (1 / v) := by
  rw [← R3.vDvdt hT (hd hT hv), ← one hT hv]; rfl
theorem tv_Kt : valTV Doc.idKt t v = -(1 / v) / R3.Dpdv (t + 273.15) (1 / v) := by
  rw [← R3.vKt hT (hd hT hv), ← one hT hv]; rfl
theorem tv_Ec : valTV Doc.idEc t v = 1 / v * (-R3.Dpdt (t + 273.15) (1 / v) / R3.Dpdv (t + 273.15) (1 / v)) := by
  rw [← R3.vEc hT (hd hT hv), ← one hT hv]; rfl
theorem tv_Jtc : valTV Doc.idJtc t v = 1000 / (1 / v) / R3.Cp (t + 273.15) (1 / v) *
    ((t + 273.15) * (1 / v * (-R3.Dpdt (t + 273.15) (1 / v) / R3.Dpdv (t + 273.15) (1 / v))) - 1) := by
  rw [← R3.vJtc hT (hd hT hv), ← one hT hv]; rfl
theorem tv_Ijtc : valTV Doc.idIJtc t v = -valTV Doc.idCp t v * valTV Doc.idJtc t v / 1000 := by
  have h : valTV Doc.idIJtc t v = Td2iJTC_reg3 (t + 273.15) (1 / v) := by rw [← one hT hv]; rfl
  have h2 : valTV Doc.idJtc t v = Td2joule_reg3 (t + 273.15) (1 / v) := by rw [← one hT hv]; rfl
  rw [h, h2, tv_Cp hT hv, R3.vIjtc hT (hd hT hv)]
theorem tv_E : valTV Doc.idE t v = R3.H (t + 273.15) (1 / v) - 273.16 * R3.S (t + 273.15) (1 / v) +
    gasR * (t + 273.15 - 273.16) * (1 - R3.yt (t + 273.15)) * R3.f (R3.xd (1 / v)) (R3.yt (t + 273.15)) := by
  rw [← R3.vE hT (hd hT hv), ← one hT hv]; rfl

variable {o : Int} {X : ℝ → ℝ → ℝ}
  (e : ∀ {t v}, 0 < t + 273.15 → 0 < v → valTV o t v = X (t + 273.15) (1 / v)) {D : ℝ}
include e
theorem tv_deriv_t (hd : HasDerivAt (fun T => X T (1 / v)) D (t + 273.15)) :
    HasDerivAt (fun t => valTV o t v) D t := by
  refine (hd.comp_add_const t 273.15).congr_of_eventuallyEq ?_
  have hc : Tendsto (fun t : ℝ => t + 273.15) (𝓝 t) (𝓝 (t + 273.15)) :=
    (continuous_id.add continuous_const).tendsto t
  filter_upwards [hc.eventually (lt_mem_nhds hT)] with t' ht'
  exact e ht' hv
theorem tv_deriv_v (hd : HasDerivAt (fun v => X (t + 273.15) (1 / v)) D v) :
    HasDerivAt (fun v => valTV o t v) D v := by
  refine hd.congr_of_eventuallyEq ?_
  filter_upwards [lt_mem_nhds hv] with v' hv'
  exact e hT hv'
end

end If97
