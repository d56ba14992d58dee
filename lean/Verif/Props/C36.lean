import Verif.Spec.Sub3
import Verif.Spec.PairFn
import Verif.Lemmas.DomainSat
import Verif.Props.C05
import Verif.Lemmas.Steps
import Verif.Lemmas.PolyReal

/-!
# C36 Region 3 subregion selection

* `C36_total`: whatever the arithmetic, the volume of a region 3 state comes from one of the 26
  subregion equations (never from the error branch).
* `C36_published_partial`: in exact arithmetic the equation is the one the release prescribes
  (`Spec/Sub3.lean`), for 16.529 MPa < p ≤ 100 MPa and every T, outside the set `Wrong`.
* `C36_wrong_c`, `C36_wrong_k`: for every state of `Wrong` with T ≤ T3cd or T > T3jk (pressure between the saturation pressure
  at 643.15 K and 22.5 MPa) the release prescribes 3c or 3k and the code picks another equation.
* `C36_negative_volume`: `pt(22.356, 362.55, OV)` is negative.
-/

namespace If97
open Set Domain Sub3

section Generic
variable {F : Type} [Add F] [Sub F] [Mul F] [Div F] [Neg F] [OfScientific F] [Flt F]

/-- the subregion equation of each letter -/
def Sub3.equation : Char → Option (F → F → F)
  | 'a' => some pT2v_3a | 'b' => some pT2v_3b | 'c' => some pT2v_3c | 'd' => some pT2v_3d | 'e' => some pT2v_3e
  | 'f' => some pT2v_3f | 'g' => some pT2v_3g | 'h' => some pT2v_3h | 'i' => some pT2v_3i | 'j' => some pT2v_3j
  | 'k' => some pT2v_3k | 'l' => some pT2v_3l | 'm' => some pT2v_3m | 'n' => some pT2v_3n | 'o' => some pT2v_3o
  | 'p' => some pT2v_3p | 'q' => some pT2v_3q | 'r' => some pT2v_3r | 's' => some pT2v_3s | 't' => some pT2v_3t
  | 'u' => some pT2v_3u | 'v' => some pT2v_3v | 'w' => some pT2v_3w | 'x' => some pT2v_3x | 'y' => some pT2v_3y
  | 'z' => some pT2v_3z
  | _ => none

/-- a letter of a subregion -/
def Sub3.Known (c : Char) : Prop :=
  c ∈ ['a', 'b', 'c', 'd', 'e', 'f', 'g', 'h', 'i', 'j', 'k', 'l', 'm',
    'n', 'o', 'p', 'q', 'r', 's', 't', 'u', 'v', 'w', 'x', 'y', 'z']

instance (c : Char) : Decidable (Known c) := by unfold Known; infer_instance

private theorem eq_of_known (p T : F) (c : Char) (h : Known c) :
    (equation c).map (fun f => f p T) = some (pT2v_3subreg p T c) := by
  simp only [Known, List.mem_cons, List.not_mem_nil, or_false] at h
  rcases h with h | h | h | h | h | h | h | h | h | h | h | h | h | h | h | h | h | h | h | h | h | h | h | h | h | h <;> subst h <;> rfl

private theorem ite_known {c : Prop} [Decidable c] {a b : Char} (ha : Known a) (hb : Known b) :
    Known (if c then a else b) := by split <;> assumption

private theorem getD_known {c d : Prop} [Decidable c] [Decidable d] {a b : Char} (ha : Known a) (hb : Known b) :
    Known (Option.getD (if c then none else if d then some a else none) b) := by
  split
  · exact hb
  · split
    · exact ha
    · exact hb

private theorem known (p T : F) : Known (sub_region3_pT p T) := by
  unfold sub_region3_pT
  repeat' first
    | apply ite_known
    | apply getD_known
    | decide
    | (simp only []; apply ite_known)
    | (simp only []; apply getD_known)

/-- **C36** Every (p, T) is served by the equation of exactly one subregion. -/
theorem C36_total (p t : F) : ∃ c f, Known c ∧ equation c = some f ∧
    Fn.pt.call p t Doc.idV 3 = some (f p (t + 273.15)) := by
  have hk := known p (t + 273.15)
  have := eq_of_known p (t + 273.15) _ hk
  cases he : equation (F := F) (sub_region3_pT p (t + 273.15)) with
  | none => rw [he] at this; cases this
  | some f =>
    rw [he] at this
    refine ⟨_, f, hk, he, ?_⟩
    rw [show f p (t + 273.15) = _ from Option.some.inj this]
    rfl

end Generic

/-! ### the boundary equations -/

private theorem b_ab (p : ℝ) : T_atRegionBoundary p "3ab" = T3ab p := by
  have e : T_atRegionBoundary p "3ab" = (List.range' 1 5).foldl (fun T i =>
      T + nthF T_atRegionBoundary_n3ab i * Flt.powi (fln p) (nthI T_atRegionBoundary_I3ab i)) (0.0 : ℝ) := rfl
  rw [e, show List.range' 1 5 = [1, 2, 3, 4, 5] from rfl]
  simp only [List.foldl_cons, List.foldl_nil, nthF, nthI, T_atRegionBoundary_n3ab, T_atRegionBoundary_I3ab,
    List.getD_cons_succ, List.getD_cons_zero, real_powi, real_ln, zpow_neg, zpow_ofNat, zpow_zero, zpow_one, T3ab]
  simp only [div_eq_mul_inv]; norm_num; ring
private theorem b_op (p : ℝ) : T_atRegionBoundary p "3op" = T3op p := by
  have e : T_atRegionBoundary p "3op" = (List.range' 1 5).foldl (fun T i =>
      T + nthF T_atRegionBoundary_n3op i * Flt.powi (fln p) (nthI T_atRegionBoundary_I3op i)) (0.0 : ℝ) := rfl
  rw [e, show List.range' 1 5 = [1, 2, 3, 4, 5] from rfl]
  simp only [List.foldl_cons, List.foldl_nil, nthF, nthI, T_atRegionBoundary_n3op, T_atRegionBoundary_I3op,
    List.getD_cons_succ, List.getD_cons_zero, real_powi, real_ln, zpow_neg, zpow_ofNat, zpow_zero, zpow_one, T3op]
  simp only [div_eq_mul_inv]; norm_num; ring
private theorem b_wx (p : ℝ) : T_atRegionBoundary p "3wx" = T3wx p := by
  have e : T_atRegionBoundary p "3wx" = (List.range' 1 5).foldl (fun T i =>
      T + nthF T_atRegionBoundary_n3wx i * Flt.powi (fln p) (nthI T_atRegionBoundary_I3wx i)) (0.0 : ℝ) := rfl
  rw [e, show List.range' 1 5 = [1, 2, 3, 4, 5] from rfl]
  simp only [List.foldl_cons, List.foldl_nil, nthF, nthI, T_atRegionBoundary_n3wx, T_atRegionBoundary_I3wx,
    List.getD_cons_succ, List.getD_cons_zero, real_powi, real_ln, zpow_neg, zpow_ofNat, zpow_zero, zpow_one, T3wx]
  simp only [div_eq_mul_inv]; norm_num
private theorem b_ef (p : ℝ) : T_atRegionBoundary p "3ef" = T3ef p := rfl
private theorem b_cd (p : ℝ) : T_atRegionBoundary p "3cd" = T3cd p := by
  have e : T_atRegionBoundary p "3cd" = (List.range' 1 4).foldl (fun T i =>
      T + nthF T_atRegionBoundary_n3cd i * Flt.powi (p) (nthI T_atRegionBoundary_I3cd i)) (0.0 : ℝ) := rfl
  rw [e, show List.range' 1 4 = [1, 2, 3, 4] from rfl]
  simp only [List.foldl_cons, List.foldl_nil, nthF, nthI, T_atRegionBoundary_n3cd, T_atRegionBoundary_I3cd,
    List.getD_cons_succ, List.getD_cons_zero, real_powi, real_ln, zpow_neg, zpow_ofNat, zpow_zero, zpow_one, T3cd]
  norm_num; ring
private theorem b_gh (p : ℝ) : T_atRegionBoundary p "3gh" = T3gh p := by
  have e : T_atRegionBoundary p "3gh" = (List.range' 1 5).foldl (fun T i =>
      T + nthF T_atRegionBoundary_n3gh i * Flt.powi (p) (nthI T_atRegionBoundary_I3gh i)) (0.0 : ℝ) := rfl
  rw [e, show List.range' 1 5 = [1, 2, 3, 4, 5] from rfl]
  simp only [List.foldl_cons, List.foldl_nil, nthF, nthI, T_atRegionBoundary_n3gh, T_atRegionBoundary_I3gh,
    List.getD_cons_succ, List.getD_cons_zero, real_powi, real_ln, zpow_neg, zpow_ofNat, zpow_zero, zpow_one, T3gh]
  norm_num; ring
private theorem b_ij (p : ℝ) : T_atRegionBoundary p "3ij" = T3ij p := by
  have e : T_atRegionBoundary p "3ij" = (List.range' 1 5).foldl (fun T i =>
      T + nthF T_atRegionBoundary_n3ij i * Flt.powi (p) (nthI T_atRegionBoundary_I3ij i)) (0.0 : ℝ) := rfl
  rw [e, show List.range' 1 5 = [1, 2, 3, 4, 5] from rfl]
  simp only [List.foldl_cons, List.foldl_nil, nthF, nthI, T_atRegionBoundary_n3ij, T_atRegionBoundary_I3ij,
    List.getD_cons_succ, List.getD_cons_zero, real_powi, real_ln, zpow_neg, zpow_ofNat, zpow_zero, zpow_one, T3ij]
  norm_num; ring
private theorem b_jk (p : ℝ) : T_atRegionBoundary p "3jk" = T3jk p := by
  have e : T_atRegionBoundary p "3jk" = (List.range' 1 5).foldl (fun T i =>
      T + nthF T_atRegionBoundary_n3jk i * Flt.powi (p) (nthI T_atRegionBoundary_I3jk i)) (0.0 : ℝ) := rfl
  rw [e, show List.range' 1 5 = [1, 2, 3, 4, 5] from rfl]
  simp only [List.foldl_cons, List.foldl_nil, nthF, nthI, T_atRegionBoundary_n3jk, T_atRegionBoundary_I3jk,
    List.getD_cons_succ, List.getD_cons_zero, real_powi, real_ln, zpow_neg, zpow_ofNat, zpow_zero, zpow_one, T3jk]
  norm_num; ring
private theorem b_mn (p : ℝ) : T_atRegionBoundary p "3mn" = T3mn p := by
  have e : T_atRegionBoundary p "3mn" = (List.range' 1 4).foldl (fun T i =>
      T + nthF T_atRegionBoundary_n3mn i * Flt.powi (p) (nthI T_atRegionBoundary_I3mn i)) (0.0 : ℝ) := rfl
  rw [e, show List.range' 1 4 = [1, 2, 3, 4] from rfl]
  simp only [List.foldl_cons, List.foldl_nil, nthF, nthI, T_atRegionBoundary_n3mn, T_atRegionBoundary_I3mn,
    List.getD_cons_succ, List.getD_cons_zero, real_powi, real_ln, zpow_neg, zpow_ofNat, zpow_zero, zpow_one, T3mn]
  norm_num; ring
private theorem b_qu (p : ℝ) : T_atRegionBoundary p "3qu" = T3qu p := by
  have e : T_atRegionBoundary p "3qu" = (List.range' 1 4).foldl (fun T i =>
      T + nthF T_atRegionBoundary_n3qu i * Flt.powi (p) (nthI T_atRegionBoundary_I3qu i)) (0.0 : ℝ) := rfl
  rw [e, show List.range' 1 4 = [1, 2, 3, 4] from rfl]
  simp only [List.foldl_cons, List.foldl_nil, nthF, nthI, T_atRegionBoundary_n3qu, T_atRegionBoundary_I3qu,
    List.getD_cons_succ, List.getD_cons_zero, real_powi, real_ln, zpow_neg, zpow_ofNat, zpow_zero, zpow_one, T3qu]
  norm_num; ring
private theorem b_rx (p : ℝ) : T_atRegionBoundary p "3rx" = T3rx p := by
  have e : T_atRegionBoundary p "3rx" = (List.range' 1 4).foldl (fun T i =>
      T + nthF T_atRegionBoundary_n3rx i * Flt.powi (p) (nthI T_atRegionBoundary_I3rx i)) (0.0 : ℝ) := rfl
  rw [e, show List.range' 1 4 = [1, 2, 3, 4] from rfl]
  simp only [List.foldl_cons, List.foldl_nil, nthF, nthI, T_atRegionBoundary_n3rx, T_atRegionBoundary_I3rx,
    List.getD_cons_succ, List.getD_cons_zero, real_powi, real_ln, zpow_neg, zpow_ofNat, zpow_zero, zpow_one, T3rx]
  norm_num; ring
private theorem b_uv (p : ℝ) : T_atRegionBoundary p "3uv" = T3uv p := by
  have e : T_atRegionBoundary p "3uv" = (List.range' 1 4).foldl (fun T i =>
      T + nthF T_atRegionBoundary_n3uv i * Flt.powi (p) (nthI T_atRegionBoundary_I3uv i)) (0.0 : ℝ) := rfl
  rw [e, show List.range' 1 4 = [1, 2, 3, 4] from rfl]
  simp only [List.foldl_cons, List.foldl_nil, nthF, nthI, T_atRegionBoundary_n3uv, T_atRegionBoundary_I3uv,
    List.getD_cons_succ, List.getD_cons_zero, real_powi, real_ln, zpow_neg, zpow_ofNat, zpow_zero, zpow_one, T3uv]
  norm_num; ring

/-! ### the selection -/

/-- The states for which the code does not follow the release: below T3cd or above T3jk between the
saturation pressure at 643.15 K and 22.5 MPa, and four boundary lines near the critical point. -/
def Wrong (p T : ℝ) : Prop := Above643 p ∧ p ≤ 22.5 ∧
  (T ≤ T3cd p ∨ T3jk p < T ∨ (22.11 < p ∧ (T = T3ef p ∨ T = T3wx p)) ∨ (p ≤ 22.064 ∧ (T = T3uv p ∨ T = T3wx p)))

private theorem s643 : p_saturation (643.15 : ℝ) = Sat.psat 643.15 := by
  rw [Sat.p_saturation_eq, if_neg (by norm_num)]

private theorem above_iff (p : ℝ) : Above643 p ↔ Sat.psat 643.15 < p := by
  constructor
  · rintro ⟨ps, h, h'⟩
    rwa [h.eq (by norm_num)] at h'
  · exact fun h => ⟨_, isSat_psat (by norm_num), h⟩

private theorem below_iff (p : ℝ) : Below643 p ↔ p ≤ Sat.psat 643.15 := by
  constructor
  · rintro ⟨ps, h, h'⟩
    rwa [h.eq (by norm_num)] at h'
  · exact fun h => ⟨_, isSat_psat (by norm_num), h⟩

private theorem tsat {p : ℝ} (h1 : 16.529 < p) (h2 : p ≤ 22.064) :
    273.15 ≤ T_saturation p ∧ T_saturation p ≤ 647.096 ∧ IsSat p (T_saturation p) := by
  obtain ⟨T, hT, rfl⟩ := Sat.exists_T (p := p) (by linarith) h2
  rw [Sat.T_saturation_psat hT (by linarith) h2]
  have a1 : 273.15 ≤ T := by
    by_contra h
    have := Sat.psat_strictMonoOn hT (by norm_num : (273.15 : ℝ) ∈ Icc (273 : ℝ) 648) (not_le.mp h)
    linarith [Sat.psat_min.2]
  have a2 : T ≤ 647.096 := by
    by_contra h
    have := Sat.psat_strictMonoOn (by norm_num : (647.096 : ℝ) ∈ Icc (273 : ℝ) 648) hT (not_le.mp h)
    linarith [Sat.psat_max.1]
  exact ⟨a1, a2, isSat_psat ⟨a1, a2⟩⟩

private theorem liquid {p T : ℝ} (h1 : 16.529 < p) (h2 : p ≤ 22.064) (h : T ≤ T_saturation p) : Liquid p T :=
  have := tsat h1 h2; ⟨_, this.1, this.2.1, this.2.2, h⟩

private theorem vapour {p T : ℝ} (h1 : 16.529 < p) (h2 : p ≤ 22.064) (h : ¬ T ≤ T_saturation p) : Vapour p T :=
  have := tsat h1 h2; ⟨_, this.1, this.2.1, this.2.2, (not_le.mp h).le⟩

private theorem p643 : 21 < Sat.psat 643.15 ∧ Sat.psat 643.15 < 21.1 := by
  constructor
  · refine lt_trans ?_ (Sat.lt_psat (b := 2.1409) (by norm_num) ?_ (by norm_num) ?_)
    · norm_num
    · unfold Sat.qA Sat.qB Sat.th; norm_num
    · unfold Sat.Qf Sat.qA Sat.qB Sat.qC Sat.th; norm_num
  · refine lt_trans (Sat.psat_lt (b := 2.1430) (by norm_num) ?_ ?_) ?_
    · unfold Sat.qA Sat.qB Sat.th; norm_num
    · unfold Sat.Qf Sat.qA Sat.qB Sat.qC Sat.th; norm_num
    · norm_num

private theorem ite_ok {P : Char → Prop} {c : Prop} [Decidable c] {a b : Char} (ha : c → P a) (hb : ¬ c → P b) :
    P (if c then a else b) := by split <;> [exact ha ‹_›; exact hb ‹_›]

private theorem getD_ok {P : Char → Prop} {c d : Prop} [Decidable c] [Decidable d] {a b : Char}
    (ha : ¬ c → d → P a) (hb : (c ∨ ¬ d) → P b) :
    P (Option.getD (if c then none else if d then some a else none) b) := by
  split
  · exact hb (.inl ‹_›)
  · split
    · exact ha ‹_› ‹_›
    · exact hb (.inr ‹_›)

private theorem published (p T : ℝ) (hp : 16.529 < p) (hp' : p ≤ 100) (hw : ¬ Wrong p T) :
    Published p T (sub_region3_pT p T) := by
  obtain ⟨q1, q2⟩ := p643
  unfold sub_region3_pT
  simp only [b_ab, b_op, b_wx, b_ef, b_cd, b_gh, b_ij, b_jk, b_mn, b_qu, b_rx, b_uv, s643, real_lt, real_le,
    Bool.and_eq_true, decide_eq_true_eq]
  refine ite_ok (P := Published p T) (fun h => ?_) fun n1 => ?_
  · norm_num at h
    refine ite_ok (P := Published p T) (fun a => .b1b h.1 h.2 a) fun a => .b1a h.1 h.2 (not_lt.mp a)
  have n1 : p ≤ 40 := by
    by_contra h; exact n1 ⟨by norm_num; linarith, by norm_num; linarith⟩
  refine ite_ok (P := Published p T) (fun h => ?_) fun n2 => ?_
  · norm_num at h
    refine ite_ok (P := Published p T) (fun a => .b2c h n1 a) fun a => ?_
    refine ite_ok (P := Published p T) (fun b => .b2d h n1 (not_le.mp a) b) fun b => ?_
    exact ite_ok (P := Published p T) (fun c => .b2e h n1 (not_le.mp b) c) fun c => .b2f h n1 (not_le.mp c)
  norm_num at n2
  refine ite_ok (P := Published p T) (fun h => ?_) fun n3 => ?_
  · refine ite_ok (P := Published p T) (fun a => .b3c h n2 a) fun a => ?_
    refine ite_ok (P := Published p T) (fun b => .b3g h n2 (not_le.mp a) b) fun b => ?_
    refine ite_ok (P := Published p T) (fun c => .b3h h n2 (not_le.mp b) c) fun c => ?_
    refine ite_ok (P := Published p T) (fun d => .b3i h n2 (not_le.mp c) d) fun d => ?_
    exact ite_ok (P := Published p T) (fun e => .b3j h n2 (not_le.mp d) e) fun e => .b3k h n2 (not_le.mp e)
  have n3 := not_lt.mp n3
  refine ite_ok (P := Published p T) (fun h => ?_) fun n4 => ?_
  · norm_num at h
    refine ite_ok (P := Published p T) (fun a => .b4c h n3 a) fun a => ?_
    refine ite_ok (P := Published p T) (fun b => .b4l h n3 (not_le.mp a) b) fun b => ?_
    refine ite_ok (P := Published p T) (fun c => .b4h h n3 (not_le.mp b) c) fun c => ?_
    refine ite_ok (P := Published p T) (fun d => .b4i h n3 (not_le.mp c) d) fun d => ?_
    exact ite_ok (P := Published p T) (fun e => .b4j h n3 (not_le.mp d) e) fun e => .b4k h n3 (not_le.mp e)
  norm_num at n4
  refine ite_ok (P := Published p T) (fun h => ?_) fun n5 => ?_
  · refine ite_ok (P := Published p T) (fun a => .b5c h n4 a) fun a => ?_
    refine ite_ok (P := Published p T) (fun b => .b5l h n4 (not_le.mp a) b) fun b => ?_
    refine ite_ok (P := Published p T) (fun c => .b5m h n4 (not_le.mp b) c) fun c => ?_
    refine ite_ok (P := Published p T) (fun d => .b5n h n4 (not_le.mp c) d) fun d => ?_
    refine ite_ok (P := Published p T) (fun e => .b5o h n4 (not_le.mp d) e) fun e => ?_
    refine ite_ok (P := Published p T) (fun f => .b5p h n4 (not_le.mp e) f) fun f => ?_
    exact ite_ok (P := Published p T) (fun g => .b5j h n4 (not_le.mp f) g) fun g => .b5k h n4 (not_le.mp g)
  have n5 := not_lt.mp n5
  refine ite_ok (P := Published p T) (fun h => ?_) fun n6 => ?_
  · have hA := (above_iff p).mpr h
    have hcd : T3cd p < T := by
      by_contra hc; exact hw ⟨hA, n5, .inl (not_lt.mp hc)⟩
    have hjk : T ≤ T3jk p := by
      by_contra hc; exact hw ⟨hA, n5, .inr (.inl (not_le.mp hc))⟩
    refine getD_ok (P := Published p T) (fun a b => .b6q hA n5 hcd b) fun a => ?_
    have hqu : T3qu p < T := by
      rcases a with a | a
      · exact absurd hcd (not_lt.mpr a)
      · exact not_le.mp a
    refine ite_ok (P := Published p T) (fun b => .b6r hA n5 b.1 b.2) fun b => ?_
    have hrx : T ≤ T3rx p := by
      by_contra hc; exact b ⟨not_le.mp hc, hjk⟩
    refine ite_ok (P := Published p T) (fun c => ?_) fun c => ?_
    · have nef : T ≠ T3ef p := fun e => hw ⟨hA, n5, .inr (.inr (.inl ⟨c, .inl e⟩))⟩
      have nwx : T ≠ T3wx p := fun e => hw ⟨hA, n5, .inr (.inr (.inl ⟨c, .inr e⟩))⟩
      refine ite_ok (P := Published p T) (fun d => .c1u c n5 hqu d) fun d => ?_
      refine ite_ok (P := Published p T) (fun e => .c1v c n5 (not_le.mp d) e.le) fun e => ?_
      have e' := lt_of_le_of_ne (not_lt.mp e) nef.symm
      refine ite_ok (P := Published p T) (fun f => .c1w c n5 e' f.le) fun f => ?_
      exact .c1x c n5 (lt_of_le_of_ne (not_lt.mp f) nwx.symm) hrx
    have c := not_lt.mp c
    refine ite_ok (P := Published p T) (fun d => ?_) fun d => ?_
    · refine ite_ok (P := Published p T) (fun e => .c2u d c hqu e) fun e => ?_
      refine ite_ok (P := Published p T) (fun f => .c2y d c (not_le.mp e) f) fun f => ?_
      exact ite_ok (P := Published p T) (fun g => .c2z d c (not_le.mp f) g) fun g => .c2x d c (not_le.mp g) hrx
    have d := not_lt.mp d
    have nuv : T ≠ T3uv p := fun e => hw ⟨hA, n5, .inr (.inr (.inr ⟨d, .inl e⟩))⟩
    have nwx : T ≠ T3wx p := fun e => hw ⟨hA, n5, .inr (.inr (.inr ⟨d, .inr e⟩))⟩
    refine ite_ok (P := Published p T) (fun e => ?_) fun e => ?_
    · have hl := liquid hp d e
      refine ite_ok (P := Published p T) (fun f => ?_) fun f => .c4u hA (not_lt.mp f) hl hqu
      exact ite_ok (P := Published p T) (fun g => .c3u f d hl hqu g.le) fun g =>
        .c3y f d hl (lt_of_le_of_ne (not_lt.mp g) nuv.symm)
    · have hv := vapour hp d e
      refine ite_ok (P := Published p T) (fun f => ?_) fun f => .c6x hA (not_lt.mp f) hv hrx
      exact ite_ok (P := Published p T) (fun g => .c5z f d hv g.le) fun g =>
        .c5x f d hv (lt_of_le_of_ne (not_lt.mp g) nwx.symm) hrx
  have n6 := not_lt.mp n6
  have hB := (below_iff p).mpr n6
  have h22 : p ≤ 22.064 := by norm_num; linarith
  refine ite_ok (P := Published p T) (fun h => ?_) fun n7 => ?_
  · refine ite_ok (P := Published p T) (fun a => .b7c h hB a) fun a => ?_
    refine ite_ok (P := Published p T) (fun b => .b7s h hB (not_le.mp a) (liquid hp h22 b)) fun b => ?_
    exact ite_ok (P := Published p T) (fun c => .b7r h hB (vapour hp h22 b) c) fun c =>
      .b7k h hB (not_le.mp c) (vapour hp h22 b)
  have n7 := not_lt.mp n7
  refine ite_ok (P := Published p T) (fun h => ?_) fun n8 => ?_
  · refine ite_ok (P := Published p T) (fun a => .b8c h n7 a) fun a => ?_
    exact ite_ok (P := Published p T) (fun b => .b8s h n7 (not_le.mp a) (liquid hp h22 b)) fun b =>
      .b8t h n7 (vapour hp h22 b)
  have n8 := not_lt.mp n8
  exact ite_ok (P := Published p T) (fun a => .b9c hp n8 (liquid hp h22 a)) fun a => .b9t hp n8 (vapour hp h22 a)

/-- **C36 (partial)** The volume is that of the subregion equation which the release prescribes.
Missing: the states of `Wrong`, where it is false (below). -/
theorem C36_published_partial (p t : ℝ) (hp : 16.529 < p) (hp' : p ≤ 100) (hw : ¬ Wrong p (t + 273.15)) :
    ∃ c f, Published p (t + 273.15) c ∧ equation c = some f ∧ Fn.pt.call p t Doc.idV 3 = some (f p (t + 273.15)) := by
  have hk := known p (t + 273.15)
  have := eq_of_known p (t + 273.15) _ hk
  cases he : equation (F := ℝ) (sub_region3_pT p (t + 273.15)) with
  | none => rw [he] at this; cases this
  | some f =>
    rw [he] at this
    refine ⟨_, f, published p _ hp hp' hw, he, ?_⟩
    rw [show f p (t + 273.15) = _ from Option.some.inj this]
    rfl

/-- in the band below 22.5 MPa the code never picks 3c or 3k -/
private theorem never (p T : ℝ) (h : Above643 p) (h' : p ≤ 22.5) :
    sub_region3_pT p T ≠ 'c' ∧ sub_region3_pT p T ≠ 'k' := by
  have hA := (above_iff p).mp h
  unfold sub_region3_pT
  simp only [b_ab, b_op, b_wx, b_ef, b_cd, b_gh, b_ij, b_jk, b_mn, b_qu, b_rx, b_uv, s643, real_lt, real_le,
    Bool.and_eq_true, decide_eq_true_eq]
  rw [if_neg (by rintro ⟨a, -⟩; norm_num at a h'; linarith), if_neg (by norm_num at h' ⊢; linarith),
    if_neg (by norm_num at h' ⊢; linarith), if_neg (by norm_num at h' ⊢; linarith), if_neg (by linarith), if_pos hA]
  refine getD_ok (P := fun c => c ≠ 'c' ∧ c ≠ 'k') (fun _ _ => by decide) fun _ => ?_
  repeat' first
    | (refine ite_ok (P := fun c => c ≠ 'c' ∧ c ≠ 'k') (fun _ => ?_) fun _ => ?_)
    | decide

/-- **C36 violated** Between the saturation pressure at 643.15 K and 22.5 MPa, for every T ≤ T3cd
the release prescribes 3c and the code takes another letter. -/
theorem C36_wrong_c (p T : ℝ) (h : Above643 p) (h' : p ≤ 22.5) (hT : T ≤ T3cd p) :
    Published p T 'c' ∧ sub_region3_pT p T ≠ 'c' := ⟨.b6c h h' hT, (never p T h h').1⟩

/-- **C36 violated** Between the saturation pressure at 643.15 K and 22.5 MPa, for every T > T3jk
the release prescribes 3k and the code takes another letter. -/
theorem C36_wrong_k (p T : ℝ) (h : Above643 p) (h' : p ≤ 22.5) (hT : T3jk p < T) :
    Published p T 'k' ∧ sub_region3_pT p T ≠ 'k' := ⟨.b6k h h' hT, (never p T h h').2⟩

private theorem above_224 : Above643 22.356 := (above_iff _).mpr (by linarith [p643.2])

private theorem letter : sub_region3_pT (22.356 : ℝ) 635.7 = 'u' := by
  have hA := (above_iff _).mp above_224
  unfold sub_region3_pT
  simp only [b_ab, b_op, b_wx, b_ef, b_cd, b_gh, b_ij, b_jk, b_mn, b_qu, b_rx, b_uv, s643, real_lt, real_le,
    Bool.and_eq_true, decide_eq_true_eq]
  rw [if_neg (by norm_num), if_neg (by norm_num), if_neg (by norm_num), if_neg (by norm_num), if_neg (by norm_num),
    if_pos hA, if_pos (by unfold T3cd; norm_num), if_neg (by unfold T3rx; norm_num), if_pos (by norm_num),
    if_pos (by unfold T3uv; norm_num)]
  rfl

private theorem region3 : Fn.pt.call0 (22.356 : ℝ) 362.55 Doc.idR = some ((3 : Int) : ℝ) := by
  have e : (362.55 : ℝ) + 273.15 = 635.7 := by norm_num
  rw [C05_map_partial _ _ (by rw [e]; unfold PressureOk pMin; norm_num) (by rw [e]; unfold TemperatureOk; norm_num)
    (by rw [e]; unfold Gap pMin; norm_num), e]
  refine .r3 (by norm_num) (by norm_num) (by unfold pB23; norm_num) ?_
  rintro ⟨_, ps, h1, h2⟩
  rw [h1.eq (by norm_num)] at h2
  have h3 := Sat.psat_strictMonoOn (by norm_num : (635.7 : ℝ) ∈ Icc (273 : ℝ) 648)
    (by norm_num : (643.15 : ℝ) ∈ Icc (273 : ℝ) 648) (by norm_num)
  have h4 := p643.2
  have h5 := Sat.psat_pos 635.7
  rw [div_lt_iff₀ h5] at h2
  have := (abs_lt.mp h2).2
  norm_num at *; linarith

private noncomputable def uTerm (e : Int × Int × ℝ) : ℝ := e.2.2 * (7 / 100 : ℝ) ^ e.1 * (-(1 / 100) : ℝ) ^ e.2.1

private theorem sum_u0 : (((pT2v_3u_IJn : List (Int × Int × ℝ)).drop 0).take 6 |>.map uTerm).sum < 1020 := by
  simp only [pT2v_3u_IJn, List.drop_succ_cons, List.drop_zero, List.take_succ_cons, List.take_zero, List.take_nil,
    List.map_cons, List.map_nil, List.sum_cons, List.sum_nil, uTerm, zpow_neg, zpow_ofNat, div_pow, one_div, neg_pow (100⁻¹ : ℝ)]
  norm_num

private theorem sum_u6 : (((pT2v_3u_IJn : List (Int × Int × ℝ)).drop 6).take 6 |>.map uTerm).sum < -1013 := by
  simp only [pT2v_3u_IJn, List.drop_succ_cons, List.drop_zero, List.take_succ_cons, List.take_zero, List.take_nil,
    List.map_cons, List.map_nil, List.sum_cons, List.sum_nil, uTerm, zpow_neg, zpow_ofNat, div_pow, one_div, neg_pow (100⁻¹ : ℝ)]
  norm_num

private theorem sum_u12 : (((pT2v_3u_IJn : List (Int × Int × ℝ)).drop 12).take 6 |>.map uTerm).sum < 139 := by
  simp only [pT2v_3u_IJn, List.drop_succ_cons, List.drop_zero, List.take_succ_cons, List.take_zero, List.take_nil,
    List.map_cons, List.map_nil, List.sum_cons, List.sum_nil, uTerm, zpow_neg, zpow_ofNat, div_pow, one_div, neg_pow (100⁻¹ : ℝ)]
  norm_num

private theorem sum_u18 : (((pT2v_3u_IJn : List (Int × Int × ℝ)).drop 18).take 6 |>.map uTerm).sum < 146 := by
  simp only [pT2v_3u_IJn, List.drop_succ_cons, List.drop_zero, List.take_succ_cons, List.take_zero, List.take_nil,
    List.map_cons, List.map_nil, List.sum_cons, List.sum_nil, uTerm, zpow_neg, zpow_ofNat, div_pow, one_div, neg_pow (100⁻¹ : ℝ)]
  norm_num

private theorem sum_u24 : (((pT2v_3u_IJn : List (Int × Int × ℝ)).drop 24).take 6 |>.map uTerm).sum < -711 := by
  simp only [pT2v_3u_IJn, List.drop_succ_cons, List.drop_zero, List.take_succ_cons, List.take_zero, List.take_nil,
    List.map_cons, List.map_nil, List.sum_cons, List.sum_nil, uTerm, zpow_neg, zpow_ofNat, div_pow, one_div, neg_pow (100⁻¹ : ℝ)]
  norm_num

private theorem sum_u30 : (((pT2v_3u_IJn : List (Int × Int × ℝ)).drop 30).take 6 |>.map uTerm).sum < 6 := by
  simp only [pT2v_3u_IJn, List.drop_succ_cons, List.drop_zero, List.take_succ_cons, List.take_zero, List.take_nil,
    List.map_cons, List.map_nil, List.sum_cons, List.sum_nil, uTerm, zpow_neg, zpow_ofNat, div_pow, one_div, neg_pow (100⁻¹ : ℝ)]
  norm_num

private theorem sum_u36 : (((pT2v_3u_IJn : List (Int × Int × ℝ)).drop 36).take 2 |>.map uTerm).sum < -1 := by
  simp only [pT2v_3u_IJn, List.drop_succ_cons, List.drop_zero, List.take_succ_cons, List.take_zero, List.take_nil,
    List.map_cons, List.map_nil, List.sum_cons, List.sum_nil, uTerm, zpow_neg, zpow_ofNat, div_pow, one_div, neg_pow (100⁻¹ : ℝ)]
  norm_num

private theorem sum_u : ((pT2v_3u_IJn : List (Int × Int × ℝ)).map fun e =>
    e.2.2 * (7 / 100 : ℝ) ^ e.1 * (-(1 / 100) : ℝ) ^ e.2.1).sum < -400 := by
  have e : (pT2v_3u_IJn : List (Int × Int × ℝ)) = (pT2v_3u_IJn.drop 0).take 6 ++
    (pT2v_3u_IJn.drop 6).take 6 ++
    (pT2v_3u_IJn.drop 12).take 6 ++
    (pT2v_3u_IJn.drop 18).take 6 ++
    (pT2v_3u_IJn.drop 24).take 6 ++
    (pT2v_3u_IJn.drop 30).take 6 ++
    (pT2v_3u_IJn.drop 36).take 2 := rfl
  show ((pT2v_3u_IJn : List (Int × Int × ℝ)).map uTerm).sum < -400
  rw [e]
  simp only [List.map_append, List.sum_append]
  linarith [sum_u0, sum_u6, sum_u12, sum_u18, sum_u24, sum_u30, sum_u36]

/-- **C36 violated, observable** At 22.356 MPa and 362.55 °C, a state that the library itself puts in
region 3, the specific volume it returns is negative. -/
theorem C36_negative_volume :
    Fn.pt.call0 (22.356 : ℝ) 362.55 Doc.idR = some 3 ∧ Published 22.356 (362.55 + 273.15) 'c' ∧
    ∃ v : ℝ, Fn.pt.call (22.356 : ℝ) 362.55 Doc.idV 3 = some v ∧ v < -1 := by
  have e : (362.55 : ℝ) + 273.15 = 635.7 := by norm_num
  refine ⟨region3.trans (by norm_num), .b6c above_224 (by norm_num) (by rw [e]; unfold T3cd; norm_num), pT2v_reg3 22.356 (362.55 + 273.15), rfl, ?_⟩
  rw [e, pT2v_reg3]
  simp only [letter]
  show pT2v_3u (22.356 : ℝ) 635.7 < -1
  unfold pT2v_3u pT2v_sum_steps
  have hs : ∀ x y : ℝ, poly_powi_steps x y pT2v_3u_IJn pT2v_3u_steps = poly_powi x y pT2v_3u_IJn :=
    fun x y => stepsFold_eq _ _ _ _ rfl
  simp only [hs, real_powf, show (1.0 : ℝ) = 1 by norm_num, Real.rpow_one, poly_powi_sum,
    show (22.356 : ℝ) / 23.0 - 0.902 = 7 / 100 by norm_num, show (635.7 : ℝ) / 650.0 - 0.988 = -(1 / 100) by norm_num]
  have := sum_u
  norm_num at this ⊢
  linarith

/-- not vacuous: liquid-like water at 50 MPa and 400 °C -/
example : ∃ c f, Published (50 : ℝ) (400 + 273.15) c ∧ equation c = some f ∧
    Fn.pt.call (50 : ℝ) 400 Doc.idV 3 = some (f 50 (400 + 273.15)) :=
  C36_published_partial 50 400 (by norm_num) (by norm_num) fun h => by have := h.2.1; norm_num at this

end If97
