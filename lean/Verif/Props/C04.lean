import Verif.Props.C02
import Verif.Props.C07

/-!
# C04 Unknown property identifiers are rejected

For an identifier outside 0..35 no pair function ever returns a property number: the
result is -1000 when a region was found and the region error code otherwise.  The one
exception is `pt` on the saturation line, which answers the number 4 (see C38).
Generic in the number type.
-/

namespace If97
variable {F : Type} [Add F] [Sub F] [Mul F] [Div F] [Neg F] [OfScientific F] [Flt F]

namespace C04

/-- the facts `(o == OX) = false` used by the case analysis -/
theorem beq_false {o c : Int} (h : o < 0 ∨ 35 < o) (hc : 0 ≤ c ∧ c ≤ 35) : (o == c) = false := by
  simp; omega

theorem unk_ne {o c : Int} (h : Doc.Unknown o) (hc : 0 ≤ c ∧ c ≤ 35) : o ≠ c := by
  unfold Doc.Unknown at h; omega

macro "unk" h:ident : tactic => `(tactic| simp only [
  beq_false $h (c := OP) (by decide), beq_false $h (c := OT) (by decide), beq_false $h (c := OD) (by decide),
  beq_false $h (c := OV) (by decide), beq_false $h (c := OH) (by decide), beq_false $h (c := OS) (by decide),
  beq_false $h (c := OE) (by decide), beq_false $h (c := OU) (by decide), beq_false $h (c := OCP) (by decide),
  beq_false $h (c := OCV) (by decide), beq_false $h (c := OW) (by decide), beq_false $h (c := OKS) (by decide),
  beq_false $h (c := OF) (by decide), beq_false $h (c := OG) (by decide), beq_false $h (c := OZ) (by decide),
  beq_false $h (c := OX) (by decide), beq_false $h (c := OR) (by decide), beq_false $h (c := OEC) (by decide),
  beq_false $h (c := OKT) (by decide), beq_false $h (c := ODVDT) (by decide), beq_false $h (c := ODVDP) (by decide),
  beq_false $h (c := ODPDT) (by decide), beq_false $h (c := OIJTC) (by decide), beq_false $h (c := OJTC) (by decide),
  beq_false $h (c := ODV) (by decide), beq_false $h (c := OKV) (by decide), beq_false $h (c := OTC) (by decide),
  beq_false $h (c := OTD) (by decide), beq_false $h (c := OPR) (by decide), beq_false $h (c := OST) (by decide),
  beq_false $h (c := OSDC) (by decide), beq_false $h (c := OPC) (by decide), beq_false $h (c := OBETAP) (by decide),
  beq_false $h (c := OFI) (by decide), beq_false $h (c := OFU) (by decide), beq_false $h (c := OALFAP) (by decide),
  Bool.false_eq_true, if_false, ite_false, Bool.or_false, Bool.or_self])

macro "small" h:ident : tactic => `(tactic| simp only [
  beq_false $h (c := OP) (by decide), beq_false $h (c := OT) (by decide), beq_false $h (c := OD) (by decide),
  beq_false $h (c := OV) (by decide), beq_false $h (c := OX) (by decide), Bool.false_eq_true, if_false])

variable (a b : F) {o : Int} (h : Doc.Unknown o)
include h

theorem pT_reg1_unk : pT_reg1 a b o = Flt.ofInt (-1000) := by
  unfold Doc.Unknown at h; unfold pT_reg1 pT_thermal_reg1 pT_ext_reg1; unk h; rfl
theorem pT_reg2_unk : pT_reg2 a b o = Flt.ofInt (-1000) := by
  unfold Doc.Unknown at h; unfold pT_reg2 pT_thermal_reg2 pT_ext_reg2; unk h; rfl
theorem pT_reg5_unk : pT_reg5 a b o = Flt.ofInt (-1000) := by
  unfold Doc.Unknown at h; unfold pT_reg5 pT_thermal_reg5 pT_ext_reg5; unk h; rfl
theorem Td_reg3_unk : Td_reg3 a b o = Flt.ofInt (-1000) := by
  unfold Doc.Unknown at h; unfold Td_reg3 Td_thermal_reg3 Td_ext_reg3; unk h; rfl

theorem px_reg4_unk : px_reg4 a b o = Flt.ofInt (-1000) := by
  have h' := h; unfold Doc.Unknown at h'
  unfold px_reg4 p2sat_water p2sat_steam; unk h'
  simp only [pT_reg1_unk (F := F) _ _ h, pT_reg2_unk (F := F) _ _ h, Td_reg3_unk (F := F) _ _ h, ite_self, INVALID_OUTID]
theorem Tx_reg4_unk : Tx_reg4 a b o = Flt.ofInt (-1000) := by
  have h' := h; unfold Doc.Unknown at h'
  unfold Tx_reg4 T2sat_water T2sat_steam; unk h'
  simp only [pT_reg1_unk (F := F) _ _ h, pT_reg2_unk (F := F) _ _ h, Td_reg3_unk (F := F) _ _ h, ite_self, INVALID_OUTID]
theorem hs_reg4_unk (v : F) (hv : hs_reg4 a b o = some v) : v = Flt.ofInt (-1000) := by
  have h' := h; unfold Doc.Unknown at h'
  unfold hs_reg4 at hv
  simp only [beq_false h' (c := OT) (by decide), beq_false h' (c := OP) (by decide),
    beq_false h' (c := OX) (by decide), Bool.false_eq_true, if_false, px_reg4_unk (F := F) _ _ h] at hv
  cases hT : hs2T_reg4 a b with
  | none => rw [hT] at hv; cases hv
  | some T => rw [hT] at hv; exact (Option.some.inj hv).symm
theorem tv_reg2_unk (v : F) (hv : tv_reg2 a b o = some v) : v = Flt.ofInt (-1000) := by
  have h' := h; unfold Doc.Unknown at h'
  unfold tv_reg2 at hv
  simp only [beq_false h' (c := OP) (by decide), Bool.false_eq_true, if_false, pT_reg2_unk (F := F) _ _ h] at hv
  cases hT : Tv2p_reg2 (a + K) b with
  | none => rw [hT] at hv; cases hv
  | some T => rw [hT] at hv; exact (Option.some.inj hv).symm
theorem th_reg2_unk (v : F) (hv : th_reg2 a b o = some v) : v = Flt.ofInt (-1000) := by
  have h' := h; unfold Doc.Unknown at h'
  unfold th_reg2 at hv
  simp only [beq_false h' (c := OP) (by decide), Bool.false_eq_true, if_false, pT_reg2_unk (F := F) _ _ h] at hv
  cases hT : Th2p_reg2 (a + 273.15) b with
  | none => rw [hT] at hv; cases hv
  | some T => rw [hT] at hv; exact (Option.some.inj hv).symm
theorem tv_reg5_unk (v : F) (hv : tv_reg5 a b o = some v) : v = Flt.ofInt (-1000) := by
  have h' := h; unfold Doc.Unknown at h'
  unfold tv_reg5 at hv
  simp only [beq_false h' (c := OP) (by decide), beq_false h' (c := OD) (by decide),
    Bool.false_eq_true, if_false, pT_reg5_unk (F := F) _ _ h] at hv
  cases hT : Tv2p_reg5 (a + 273.15) b with
  | none => rw [hT] at hv; cases hv
  | some T => rw [hT] at hv; exact (Option.some.inj hv).symm

theorem pT_reg3_unk : pT_reg3 a b o = Flt.ofInt (-1000) := by
  have h' := h; unfold Doc.Unknown at h'; unfold pT_reg3; small h'; exact Td_reg3_unk (F := F) _ _ h
theorem ph_reg1_unk : ph_reg1 a b o = Flt.ofInt (-1000) := by
  have h' := h; unfold Doc.Unknown at h'; unfold ph_reg1; small h'; exact pT_reg1_unk (F := F) _ _ h
theorem ph_reg2_unk : ph_reg2 a b o = Flt.ofInt (-1000) := by
  have h' := h; unfold Doc.Unknown at h'; unfold ph_reg2; small h'; exact pT_reg2_unk (F := F) _ _ h
theorem ph_reg3_unk : ph_reg3 a b o = Flt.ofInt (-1000) := by
  have h' := h; unfold Doc.Unknown at h'; unfold ph_reg3; small h'; exact Td_reg3_unk (F := F) _ _ h
theorem ph_reg4_unk : ph_reg4 a b o = Flt.ofInt (-1000) := by
  have h' := h; unfold Doc.Unknown at h'; unfold ph_reg4; small h'; exact px_reg4_unk (F := F) _ _ h
theorem ph_reg5_unk : ph_reg5 a b o = Flt.ofInt (-1000) := by
  have h' := h; unfold Doc.Unknown at h'; unfold ph_reg5; small h'; exact pT_reg5_unk (F := F) _ _ h
theorem ps_reg1_unk : ps_reg1 a b o = Flt.ofInt (-1000) := by
  have h' := h; unfold Doc.Unknown at h'; unfold ps_reg1; small h'; exact pT_reg1_unk (F := F) _ _ h
theorem ps_reg2_unk : ps_reg2 a b o = Flt.ofInt (-1000) := by
  have h' := h; unfold Doc.Unknown at h'; unfold ps_reg2; small h'; exact pT_reg2_unk (F := F) _ _ h
theorem ps_reg3_unk : ps_reg3 a b o = Flt.ofInt (-1000) := by
  have h' := h; unfold Doc.Unknown at h'; unfold ps_reg3; small h'; exact Td_reg3_unk (F := F) _ _ h
theorem ps_reg4_unk : ps_reg4 a b o = Flt.ofInt (-1000) := by
  have h' := h; unfold Doc.Unknown at h'; unfold ps_reg4; small h'; exact px_reg4_unk (F := F) _ _ h
theorem ps_reg5_unk : ps_reg5 a b o = Flt.ofInt (-1000) := by
  have h' := h; unfold Doc.Unknown at h'; unfold ps_reg5; small h'; exact pT_reg5_unk (F := F) _ _ h
theorem hs_reg1_unk : hs_reg1 a b o = Flt.ofInt (-1000) := by
  have h' := h; unfold Doc.Unknown at h'; unfold hs_reg1; small h'; exact ph_reg1_unk (F := F) _ _ h
theorem hs_reg2_unk : hs_reg2 a b o = Flt.ofInt (-1000) := by
  have h' := h; unfold Doc.Unknown at h'; unfold hs_reg2; small h'; exact ph_reg2_unk (F := F) _ _ h
theorem hs_reg3_unk : hs_reg3 a b o = Flt.ofInt (-1000) := by
  have h' := h; unfold Doc.Unknown at h'; unfold hs_reg3; small h'; exact Td_reg3_unk (F := F) _ _ h
theorem hs_reg5_unk : hs_reg5 a b o = Flt.ofInt (-1000) := by
  have h' := h; unfold Doc.Unknown at h'; unfold hs_reg5; small h'; exact ph_reg5_unk (F := F) _ _ h
theorem pv_reg1_unk : pv_reg1 a b o = Flt.ofInt (-1000) := by
  have h' := h; unfold Doc.Unknown at h'; unfold pv_reg1; small h'; exact pT_reg1_unk (F := F) _ _ h
theorem pv_reg2_unk : pv_reg2 a b o = Flt.ofInt (-1000) := by
  have h' := h; unfold Doc.Unknown at h'; unfold pv_reg2; small h'; exact pT_reg2_unk (F := F) _ _ h
theorem pv_reg3_unk : pv_reg3 a b o = Flt.ofInt (-1000) := by
  have h' := h; unfold Doc.Unknown at h'; unfold pv_reg3; small h'; exact Td_reg3_unk (F := F) _ _ h
theorem pv_reg4_unk : pv_reg4 a b o = Flt.ofInt (-1000) := by
  have h' := h; unfold Doc.Unknown at h'; unfold pv_reg4; small h'; exact px_reg4_unk (F := F) _ _ h
theorem pv_reg5_unk : pv_reg5 a b o = Flt.ofInt (-1000) := by
  have h' := h; unfold Doc.Unknown at h'; unfold pv_reg5; small h'; exact pT_reg5_unk (F := F) _ _ h
theorem tv_reg1_unk : tv_reg1 a b o = Flt.ofInt (-1000) := by
  have h' := h; unfold Doc.Unknown at h'; unfold tv_reg1; small h'; exact pT_reg1_unk (F := F) _ _ h
theorem tv_reg3_unk : tv_reg3 a b o = Flt.ofInt (-1000) := by
  have h' := h; unfold Doc.Unknown at h'; unfold tv_reg3; small h'; exact Td_reg3_unk (F := F) _ _ h
theorem tv_reg4_unk : tv_reg4 a b o = Flt.ofInt (-1000) := by
  have h' := h; unfold Doc.Unknown at h'; unfold tv_reg4; small h'; exact Tx_reg4_unk (F := F) _ _ h
theorem th_reg1_unk : th_reg1 a b o = Flt.ofInt (-1000) := by
  have h' := h; unfold Doc.Unknown at h'; unfold th_reg1; small h'; exact pT_reg1_unk (F := F) _ _ h
theorem th_reg3_unk : th_reg3 a b o = Flt.ofInt (-1000) := by
  have h' := h; unfold Doc.Unknown at h'; unfold th_reg3; small h'; exact Td_reg3_unk (F := F) _ _ h
theorem th_reg4_unk : th_reg4 a b o = Flt.ofInt (-1000) := by
  have h' := h; unfold Doc.Unknown at h'; unfold th_reg4; small h'; exact Tx_reg4_unk (F := F) _ _ h
theorem th_reg5_unk : th_reg5 a b o = Flt.ofInt (-1000) := by
  have h' := h; unfold Doc.Unknown at h'; unfold th_reg5; small h'; exact pT_reg5_unk (F := F) _ _ h
theorem ts_reg1_unk : ts_reg1 a b o = Flt.ofInt (-1000) := by
  have h' := h; unfold Doc.Unknown at h'; unfold ts_reg1; small h'; exact pT_reg1_unk (F := F) _ _ h
theorem ts_reg2_unk : ts_reg2 a b o = Flt.ofInt (-1000) := by
  have h' := h; unfold Doc.Unknown at h'; unfold ts_reg2; small h'; exact pT_reg2_unk (F := F) _ _ h
theorem ts_reg3_unk : ts_reg3 a b o = Flt.ofInt (-1000) := by
  have h' := h; unfold Doc.Unknown at h'; unfold ts_reg3; small h'; exact Td_reg3_unk (F := F) _ _ h
theorem ts_reg4_unk : ts_reg4 a b o = Flt.ofInt (-1000) := by
  have h' := h; unfold Doc.Unknown at h'; unfold ts_reg4; small h'; exact Tx_reg4_unk (F := F) _ _ h
theorem ts_reg5_unk : ts_reg5 a b o = Flt.ofInt (-1000) := by
  have h' := h; unfold Doc.Unknown at h'; unfold ts_reg5; small h'; exact pT_reg5_unk (F := F) _ _ h

/-- unknown identifiers in a region function -/
theorem formula_unk (f : Fn) (r : Int) (hr : 1 ≤ r ∧ r ≤ 5) (hx : ¬ (f = .pt ∧ r = 4)) (v : F)
    (hv : f.formula r a b o = some v) : v = Flt.ofInt (-1000) := by
  obtain ⟨h1, h5⟩ := hr
  have hr : r = 1 ∨ r = 2 ∨ r = 3 ∨ r = 4 ∨ r = 5 := by omega
  rcases hr with rfl | rfl | rfl | rfl | rfl <;> cases f
  · exact (Option.some.inj hv).symm.trans (pT_reg1_unk _ _ h)
  · exact (Option.some.inj hv).symm.trans (ph_reg1_unk _ _ h)
  · exact (Option.some.inj hv).symm.trans (ps_reg1_unk _ _ h)
  · exact (Option.some.inj hv).symm.trans (hs_reg1_unk _ _ h)
  · exact (Option.some.inj hv).symm.trans (pv_reg1_unk _ _ h)
  · exact (Option.some.inj hv).symm.trans (tv_reg1_unk _ _ h)
  · exact (Option.some.inj hv).symm.trans (th_reg1_unk _ _ h)
  · exact (Option.some.inj hv).symm.trans (ts_reg1_unk _ _ h)
  · exact (Option.some.inj hv).symm.trans (pT_reg2_unk _ _ h)
  · exact (Option.some.inj hv).symm.trans (ph_reg2_unk _ _ h)
  · exact (Option.some.inj hv).symm.trans (ps_reg2_unk _ _ h)
  · exact (Option.some.inj hv).symm.trans (hs_reg2_unk _ _ h)
  · exact (Option.some.inj hv).symm.trans (pv_reg2_unk _ _ h)
  · exact tv_reg2_unk a b h v hv
  · exact th_reg2_unk a b h v hv
  · exact (Option.some.inj hv).symm.trans (ts_reg2_unk _ _ h)
  · exact (Option.some.inj hv).symm.trans (pT_reg3_unk _ _ h)
  · exact (Option.some.inj hv).symm.trans (ph_reg3_unk _ _ h)
  · exact (Option.some.inj hv).symm.trans (ps_reg3_unk _ _ h)
  · exact (Option.some.inj hv).symm.trans (hs_reg3_unk _ _ h)
  · exact (Option.some.inj hv).symm.trans (pv_reg3_unk _ _ h)
  · exact (Option.some.inj hv).symm.trans (tv_reg3_unk _ _ h)
  · exact (Option.some.inj hv).symm.trans (th_reg3_unk _ _ h)
  · exact (Option.some.inj hv).symm.trans (ts_reg3_unk _ _ h)
  · exact absurd ⟨rfl, rfl⟩ hx
  · exact (Option.some.inj hv).symm.trans (ph_reg4_unk _ _ h)
  · exact (Option.some.inj hv).symm.trans (ps_reg4_unk _ _ h)
  · exact hs_reg4_unk a b h v hv
  · exact (Option.some.inj hv).symm.trans (pv_reg4_unk _ _ h)
  · exact (Option.some.inj hv).symm.trans (tv_reg4_unk _ _ h)
  · exact (Option.some.inj hv).symm.trans (th_reg4_unk _ _ h)
  · exact (Option.some.inj hv).symm.trans (ts_reg4_unk _ _ h)
  · exact (Option.some.inj hv).symm.trans (pT_reg5_unk _ _ h)
  · exact (Option.some.inj hv).symm.trans (ph_reg5_unk _ _ h)
  · exact (Option.some.inj hv).symm.trans (ps_reg5_unk _ _ h)
  · exact (Option.some.inj hv).symm.trans (hs_reg5_unk _ _ h)
  · exact (Option.some.inj hv).symm.trans (pv_reg5_unk _ _ h)
  · exact tv_reg5_unk a b h v hv
  · exact (Option.some.inj hv).symm.trans (th_reg5_unk _ _ h)
  · exact (Option.some.inj hv).symm.trans (ts_reg5_unk _ _ h)

end C04

open C04

/-- The eight detecting functions: an unknown identifier gives -1000 if a region was found,
and the error code of the state otherwise; except for `pt` in region 4. -/
theorem C04_unknown_id (f : Fn) (a b : F) (o r : Int) (h : Doc.Unknown o)
    (hd : f.detect a b = some r) (hx : ¬ (f = .pt ∧ r = 4)) (v : F) (hv : f.call0 a b o = some v) :
    v = Flt.ofInt (if r ∈ [1, 2, 3, 4, 5] then Doc.errOutId else r) := by
  have h' := h; unfold Doc.Unknown at h'
  have he : ¬ f.Echo o := by
    cases f <;> exact fun e => e.elim (unk_ne h (by decide)) (unk_ne h (by decide))
  by_cases hr : r ∈ [1, 2, 3, 4, 5]
  · rw [if_pos hr]
    have hr' : 1 ≤ r ∧ r ≤ 5 := by simp at hr; omega
    rw [← C02_region_consistent f a b o r hr' hd,
      C02_region_formula f a b o r hr' he (unk_ne h (by decide)) (unk_ne h (by decide))] at hv
    exact formula_unk a b h f r hr' hx v hv
  · rw [if_neg hr]
    have := C07_error_code f a b r o hd hr he
    rw [hv, if_neg (unk_ne h (by decide))] at this
    exact Option.some.inj this

/-- The exception: on the saturation line `pt` gives 4.0 for an unknown identifier as well
(unless the state is exactly the critical point, where it is -1000). -/
theorem C04_unknown_id_pt4 (p t : F) (o : Int) (h : Doc.Unknown o) (hd : Fn.pt.detect p t = some 4) :
    Fn.pt.call0 p t o = some (4.0 : F) ∨ Fn.pt.call0 p t o = some (Flt.ofInt (-1000)) := by
  have h' := h; unfold Doc.Unknown at h'
  have he : ¬ Fn.pt.Echo o := fun e => e.elim (unk_ne h (by decide)) (unk_ne h (by decide))
  rw [← C02_region_consistent .pt p t o 4 (by omega) hd,
    C02_region_formula .pt p t o 4 (by omega) he (unk_ne h (by decide)) (unk_ne h (by decide))]
  simp only [Fn.formula, pT_reg4, Td_reg3_unk (F := F) _ _ h]
  split
  · right; rfl
  · left; rfl

/-- The four functions with a steam quality: -1000, or -9999 if the input is out of range. -/
theorem C04_unknown_id_x (f : FnX) (a b : F) (o : Int) (h : Doc.Unknown o) :
    f.call a b o = some (Flt.ofInt Doc.errOutId) ∨ f.call a b o = some (Flt.ofInt Doc.errValue) := by
  have h' := h; unfold Doc.Unknown at h'
  cases f <;> simp only [FnX.call, Rust.px, Rust.tx, Rust.hx, Rust.sx, hx_reg4, sx_reg4] <;> unk h' <;>
    simp only [px_reg4_unk (F := F) _ _ h, Tx_reg4_unk (F := F) _ _ h] <;> split <;> first | (left; rfl) | (right; rfl)

/-- Non-vacuity: 36 and -1 are unknown, and the hypotheses are satisfied at a supercritical-pressure
out-of-range state and by `px` in range. -/
example : FnX.px.call (1.0 : ℝ) 0.5 36 = some (-1000) ∧ Doc.Unknown (-1) := by
  refine ⟨?_, by unfold Doc.Unknown; omega⟩
  simp only [FnX.call, Rust.px]
  rw [if_neg (by norm_num [P_MAX4, P_MIN4])]
  rw [if_neg (by decide), if_neg (by decide), px_reg4_unk (F := ℝ) _ _ (by unfold Doc.Unknown; omega)]
  simp

end If97
