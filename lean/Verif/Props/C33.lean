import Verif.Lemmas.Terminate
import Verif.Lemmas.DomainSat
import Verif.Spec.PairFn
import Verif.Props.C27

/-!
# C33 Iterative inversions stay inside the region limits

Exact arithmetic, all real inputs (also inputs for which the iteration does not converge).  Region 2 and 5
inversions end with a clamp, so whatever the secant search produced, the returned pressure or temperature
lies inside the limits of the region — unless the state returned early because it reproduces the given
property to 1e-8 (`Reproduces`).

Where the code falls short of the claim (so the theorems are `_partial`):
* `pv` in region 2 moves the clamped temperature once more by 0.001 K;
* `pv` in region 1 may return up to 350.01 °C, or the error value −9999 treated as a temperature in
  kelvin, that is −10272.15 °C;
* `tv` in region 1 is not clamped: only positivity is guaranteed;
* early exits are not clamped.
-/

namespace If97
open Set

/-- the state `(p, t)` of region `r` has the property `o` equal to `y` within 1e-8 -/
def Reproduces (r : Int) (o : Int) (p t y : ℝ) : Prop :=
  ∃ z, Fn.pt.call p t o r = some z ∧ |y - z| < 1e-8

/-- `P` is the upper pressure limit of region 2 at `T` (K) -/
def UpperP2 (T P : ℝ) : Prop :=
  (T ≤ 623.15 ∧ Domain.IsSat P T) ∨ (623.15 < T ∧ T ≤ 863.15 ∧ P = Domain.pB23 T) ∨ (863.15 < T ∧ P = 100)

/-- `T` is the lower temperature limit of region 2 at `p` (the two B23 equations are inverse up to 1e-10) -/
def LowerT2 (p T : ℝ) : Prop :=
  (p < 0.000611213 ∧ T = 273.15) ∨ SatEq p T ∨ |Domain.pB23 T - p| ≤ 1e-10

private theorem esp {x : ℝ} (h : (Flt.lt (Flt.abs x) (ESP : ℝ)) = true) : |x| < 1e-8 := by
  simp only [real_lt, real_abs, decide_eq_true_eq, ESP] at h
  norm_num at *; exact h

private theorem clamp_mem {lo hi x : ℝ} (h : lo ≤ hi) :
    (if Flt.lt x lo = true then lo else if Flt.lt hi x = true then hi else x) ∈ Icc lo hi := by
  simp only [real_lt, decide_eq_true_eq]
  split_ifs with h1 h2
  · exact ⟨le_rfl, h⟩
  · exact ⟨h, le_rfl⟩
  · exact ⟨not_lt.mp h1, not_lt.mp h2⟩

private theorem clamp_mem' {lo hi x : ℝ} (h : lo ≤ hi) :
    (if Flt.lt hi x = true then hi else if Flt.lt x lo = true then lo else x) ∈ Icc lo hi := by
  simp only [real_lt, decide_eq_true_eq]
  split_ifs with h1 h2
  · exact ⟨h, le_rfl⟩
  · exact ⟨le_rfl, h⟩
  · exact ⟨not_lt.mp h2, not_lt.mp h1⟩

private theorem clamp_seq {lo hi x : ℝ} (h : lo ≤ hi) :
    (if Flt.lt hi (if Flt.lt x lo = true then lo else x) = true then hi else (if Flt.lt x lo = true then lo else x))
      ∈ Icc lo hi := by
  simp only [real_lt, decide_eq_true_eq]
  split_ifs with h1 h2 h2
  · exact ⟨h, le_rfl⟩
  · exact ⟨le_rfl, h⟩
  · exact ⟨h, le_rfl⟩
  · exact ⟨not_lt.mp h1, not_lt.mp h2⟩

private theorem clamp_seq' {lo hi x : ℝ} (h : lo ≤ hi) :
    (if Flt.lt (if Flt.lt hi x = true then hi else x) lo = true then lo else (if Flt.lt hi x = true then hi else x))
      ∈ Icc lo hi := by
  simp only [real_lt, decide_eq_true_eq]
  split_ifs with h1 h2 h2
  · exact ⟨le_rfl, h⟩
  · exact ⟨h, le_rfl⟩
  · exact ⟨le_rfl, h⟩
  · exact ⟨not_lt.mp h2, not_lt.mp h1⟩

/-- the part of `Tv2p_reg5` after the bracketing loop -/
private noncomputable def tail5 (T v : ℝ) : Bracket ℝ → Option ℝ
  | .ret p => some p
  | .found p1 v1 p2 v2 =>
    let p1' : ℝ := if Flt.lt (p2 - (p2 - p1) * (v - v2) / (v1 - v2)) P_MIN5 = true then P_MIN5
      else p2 - (p2 - p1) * (v - v2) / (v1 - v2)
    if (Flt.lt (fabs (v - pT2v_reg5 p1' T)) ESP) = true then some p1'
    else
      let p : ℝ := rtsec1 pT2v_reg5 T v p1' p2 (v - pT2v_reg5 p1' T) (v - v2) ESP I_MAX
      let p := if Flt.lt P_MAX5 p = true then P_MAX5 else p
      some (if Flt.lt p P_MIN5 = true then P_MIN5 else p)

/-- the part of `Tv2p_reg2` after the bracketing loop -/
private noncomputable def tail2v (T v : ℝ) : Bracket ℝ → Option ℝ
  | .ret p => some p
  | .found p1 v1 p2 v2 =>
    let pm := p2 - (p2 - p1) * (v - v2) / (v1 - v2)
    let p1 := if Flt.lt v (pT2v_reg2 pm T) = true then pm else p1
    let p1 : ℝ := if Flt.lt p1 P_MIN2 = true then P_MIN2 else p1
    if (Flt.lt (fabs (v - pT2v_reg2 p1 T)) ESP) = true then some p1
    else
      let p : ℝ := rtsec1 pT2v_reg2 T v p1 p2 (v - pT2v_reg2 p1 T) (v - v2) ESP I_MAX
      some (if Flt.lt p P_MIN2 = true then P_MIN2 else if Flt.lt (T2pmax_reg2 T) p = true then T2pmax_reg2 T else p)

/-- the part of `Th2p_reg2` after the bracketing loop -/
private noncomputable def tail2h (T h : ℝ) : Bracket ℝ → Option ℝ
  | .ret p => some p
  | .found p1 h1 p2 h2 =>
    let pm := p2 - (p2 - p1) * (h - h2) / (h1 - h2)
    let pm : ℝ := if Flt.lt pm P_MIN2 = true then P_MIN2 else pm
    let p1 := if Flt.le h (pT2h_reg2 pm T) = true then pm else p1
    if (Flt.lt (fabs (h - pT2h_reg2 p1 T)) ESP) = true then some p1
    else
      let p : ℝ := rtsec1 pT2h_reg2 T h p1 p2 (h - pT2h_reg2 p1 T) (h - h2) ESP I_MAX
      let p := if Flt.lt p P_MIN2 = true then P_MIN2 else p
      some (if Flt.lt (T2pmax_reg2 T) p = true then T2pmax_reg2 T else p)

/-! ### region 5 -/

private theorem lim5 : (P_MIN5 : ℝ) ≤ P_MAX5 := by norm_num [P_MIN5, P_MAX5]
private theorem limT5 : (T_MIN5 : ℝ) ≤ T_MAX5 := by norm_num [T_MIN5, T_MAX5]

private theorem T5 {T : ℝ} (h : T ∈ Icc (T_MIN5 : ℝ) T_MAX5) : 800 ≤ T - 273.15 ∧ T - 273.15 ≤ 2000 := by
  obtain ⟨a, b⟩ := h
  unfold T_MIN5 at a
  unfold T_MAX5 at b
  norm_num at *
  constructor <;> linarith

private theorem P5 {p : ℝ} (h : p ∈ Icc (P_MIN5 : ℝ) P_MAX5) : 0.000611212677444 ≤ p ∧ p ≤ 50 := by
  obtain ⟨a, b⟩ := h
  unfold P_MIN5 at a
  unfold P_MAX5 at b
  norm_num at *
  exact ⟨a, b⟩

/-- **Region 5**, temperatures: between 800 °C and 2000 °C. -/
theorem C33_region5_T (f : Fn) (hf : f = .ph ∨ f = .ps ∨ f = .pv ∨ f = .hs) (a b : ℝ) :
    ∃ t, f.call a b Doc.idT 5 = some t ∧ 800 ≤ t ∧ t ≤ 2000 := by
  rcases hf with rfl | rfl | rfl | rfl
  · exact ⟨_, rfl, T5 (clamp_mem limT5)⟩
  · exact ⟨_, rfl, T5 (clamp_mem limT5)⟩
  · exact ⟨_, rfl, T5 (clamp_mem limT5)⟩
  · exact ⟨_, rfl, T5 (clamp_mem limT5)⟩

/-- **Region 5**, pressures by `hs`: between 0.000611212677444 and 50 MPa. -/
theorem C33_region5_hs (h s : ℝ) : ∃ p, Fn.hs.call h s Doc.idP 5 = some p ∧ 0.000611212677444 ≤ p ∧ p ≤ 50 :=
  ⟨_, rfl, P5 (clamp_mem lim5)⟩

private theorem ret_of_bind {b : Option (Bracket ℝ)} {g : Bracket ℝ → Option ℝ} {p : ℝ} (h : (b >>= g) = some p) :
    ∃ c, b = some c ∧ g c = some p := by
  cases b with
  | none => simp at h
  | some c => exact ⟨c, rfl, h⟩

private theorem ite_ok {c : Prop} [Decidable c] {P : ℝ → Prop} {a b : ℝ} (h1 : c → P a) (h2 : P b) : P (if c then a else b) := by
  split
  · exact h1 ‹_›
  · exact h2

private theorem ite_ok' {c : Prop} [Decidable c] {a b : ℝ} (h1 : c → 0 < a) (h2 : ¬ c → 0 < b) : 0 < (if c then a else b) := by
  split
  · exact h1 ‹_›
  · exact h2 ‹_›

private theorem ite_elim {c : Prop} [Decidable c] {a b : Option ℝ} {p : ℝ} {Q : Prop} (h : (if c then a else b) = some p)
    (h1 : c → a = some p → Q) (h2 : b = some p → Q) : Q := by
  split at h
  · exact h1 ‹_› h
  · exact h2 h

/-- pressures of a bracket -/
def Bracket.Ok (lo hi : ℝ) : Bracket ℝ → Prop
  | .ret p => p ∈ Icc lo hi
  | .found p1 _ p2 _ => lo ≤ p1 ∧ p2 ∈ Icc lo hi

private theorem bracket5_ok (T v : ℝ) : ∀ (n : ℕ) (p1 y1 p2 y2 : ℝ) (c : Bracket ℝ), 50 ≤ p2 * 5 ^ (n + 1) →
    p2 ∈ Icc (P_MIN5 : ℝ) P_MAX5 → bracket_reg5 T v p1 y1 p2 y2 = some c → c.Ok P_MIN5 P_MAX5 := by
  intro n
  induction n with
  | zero =>
    intro p1 y1 p2 y2 c hn h hc
    rw [bracket_reg5] at hc
    have : Flt.le (P_MAX5 : ℝ) (5.0 * p2) = true := by simp [P_MAX5]; norm_num at *; linarith
    simp only [this, if_true] at hc
    split at hc
    · cases hc; exact ⟨lim5, le_rfl⟩
    · simp only [ite_self, if_true] at hc
      cases hc; exact ⟨h.1, lim5, le_rfl⟩
  | succ n ih =>
    intro p1 y1 p2 y2 c hn h hc
    rw [bracket_reg5] at hc
    by_cases hm : Flt.le (P_MAX5 : ℝ) (5.0 * p2) = true
    · simp only [hm, if_true] at hc
      split at hc
      · cases hc; exact ⟨lim5, le_rfl⟩
      · simp only [ite_self, if_true] at hc
        cases hc; exact ⟨h.1, lim5, le_rfl⟩
    · have hm' : (5.0 * p2) ∈ Icc (P_MIN5 : ℝ) P_MAX5 := by
        simp only [real_le, decide_eq_true_eq, not_le] at hm
        refine ⟨?_, hm.le⟩
        have := h.1
        have h0 : (0 : ℝ) < P_MIN5 := by norm_num [P_MIN5]
        norm_num; linarith
      rw [Bool.not_eq_true] at hm
      simp only [hm, Bool.false_eq_true, if_false] at hc
      split at hc
      · cases hc; exact hm'
      · split at hc
        · cases hc; exact ⟨h.1, hm'⟩
        · refine ih _ _ _ _ _ ?_ hm' hc
          rw [pow_succ _ (n + 1)] at hn; norm_num at *; linarith

/-- **Region 5**, pressures by `tv`, `th`, `ts`. -/
theorem C33_region5_P_partial (f : Fn) (hf : f = .tv ∨ f = .th ∨ f = .ts) (t y : ℝ) :
    ∃ p, f.call t y Doc.idP 5 = some p ∧
      ((0.000611212677444 ≤ p ∧ p ≤ 50) ∨ Reproduces 5 f.id2 p t y) := by
  rcases hf with rfl | rfl | rfl
  · obtain ⟨p, hp⟩ := Option.isSome_iff_exists.mp (Tv2p_reg5_returns (t + 273.15) y)
    refine ⟨p, ?_, ?_⟩
    · show (Tv2p_reg5 (t + 273.15) y >>= fun p => some p) = some p
      rw [hp]; rfl
    · unfold Tv2p_reg5 at hp
      have e : (if Flt.lt (P_MAX5 : ℝ) (10.0 * P_MIN5) = true then (P_MAX5 : ℝ) else 10.0 * P_MIN5) = 10.0 * P_MIN5 := by
        rw [if_neg]; simp [P_MAX5, P_MIN5]; norm_num
      have m10 : (10.0 * P_MIN5 : ℝ) ∈ Icc (P_MIN5 : ℝ) P_MAX5 := by
        constructor <;> norm_num [P_MIN5, P_MAX5]
      simp only [e] at hp
      split at hp
      · cases hp; exact .inl (P5 ⟨le_rfl, lim5⟩)
      · split at hp
        · cases hp; exact .inl (P5 m10)
        · have main : ∀ c : Bracket ℝ, c.Ok P_MIN5 P_MAX5 → tail5 (t + 273.15) y c = some p →
              ((0.000611212677444 ≤ p ∧ p ≤ 50) ∨ Reproduces 5 Fn.tv.id2 p t y) := by
            intro c ok hg
            cases c with
            | ret q => cases hg; exact .inl (P5 ok)
            | found p1 v1 p2 v2 =>
              refine ite_elim hg (fun hs hg => ?_) (fun hg => ?_)
              · cases hg
                exact .inr ⟨_, rfl, esp hs⟩
              · cases hg; exact .inl (P5 (clamp_seq' lim5))
          split at hp
          · exact main (.found _ _ _ _) ⟨le_rfl, m10⟩ hp
          · obtain ⟨c, hc, hg⟩ := ret_of_bind hp
            have ok := bracket5_ok _ _ 10 _ _ _ _ _ (by norm_num [P_MIN5]) m10 hc
            cases c with
            | ret q => exact main (.ret q) ok hg
            | found => exact main (.found _ _ _ _) ok hg
  · refine ⟨Th2p_reg5 (t + 273.15) y, rfl, ?_⟩
    exact ite_ok (P := fun p => (0.000611212677444 ≤ p ∧ p ≤ 50) ∨ Reproduces 5 Doc.idH p t y)
      (fun hs => .inr ⟨_, rfl, esp hs⟩) (.inl (P5 (clamp_seq' lim5)))
  · refine ⟨Ts2p_reg5 (t + 273.15) y, rfl, ?_⟩
    exact ite_ok (P := fun p => (0.000611212677444 ≤ p ∧ p ≤ 50) ∨ Reproduces 5 Doc.idS p t y)
      (fun hs => .inr ⟨_, rfl, esp hs⟩) (.inl (P5 (clamp_mem' lim5)))

/-! ### region 2 -/

private theorem B23_pos (T : ℝ) : 13 ≤ B23_T2p T := by
  simp only [B23_T2p, nthF, B23_T2p_n23, List.getD_cons_succ, List.getD_cons_zero]
  norm_num
  nlinarith [sq_nonneg (T - 572.5)]

private theorem pmax_ge (T : ℝ) : 1e-4 ≤ T2pmax_reg2 T := by
  simp only [T2pmax_reg2, real_lt, real_le, Bool.and_eq_true, decide_eq_true_eq]
  split
  · rename_i h
    rw [Sat.p_saturation_eq, if_neg (by push Not; constructor <;> norm_num at * <;> linarith)]
    have := Sat.psat_strictMonoOn.monotoneOn (a := 273.15) (b := T) (by norm_num)
      (by constructor <;> norm_num at * <;> linarith) (by norm_num at *; linarith)
    have := Sat.psat_min.1
    norm_num at *; linarith
  · split
    · have := B23_pos T; norm_num at *; linarith
    · split
      · norm_num
      · norm_num [P_MAX2]

private theorem lim2 (T : ℝ) : (P_MIN2 : ℝ) ≤ T2pmax_reg2 T := by
  have := pmax_ge T
  unfold P_MIN2; norm_num at *; linarith

private theorem upper {T : ℝ} (h1 : 273.15 ≤ T) (h2 : T ≤ 1073.15) : UpperP2 T (T2pmax_reg2 T) := by
  unfold T2pmax_reg2 UpperP2
  simp only [real_lt, real_le, Bool.and_eq_true, decide_eq_true_eq]
  by_cases c1 : T ≤ 623.15
  · rw [if_pos ⟨h1, c1⟩, Sat.p_saturation_eq, if_neg (by push Not; constructor <;> norm_num at * <;> linarith)]
    exact .inl ⟨c1, Domain.isSat_psat ⟨h1, by norm_num at *; linarith⟩⟩
  · rw [if_neg (fun h => c1 h.2)]
    rw [not_le] at c1
    by_cases c2 : T ≤ 863.15
    · rw [if_pos ⟨c1, c2⟩]
      refine .inr (.inl ⟨c1, c2, ?_⟩)
      simp only [B23_T2p, nthF, B23_T2p_n23, List.getD_cons_succ, List.getD_cons_zero, Domain.pB23]
      norm_num; ring
    · rw [if_neg (fun h => c2 h.2)]
      rw [not_le] at c2
      rw [if_pos ⟨c2, h2⟩]
      exact .inr (.inr ⟨c2, by norm_num⟩)

/-- partial correctness of the bracketing loop -/
private theorem bracket2_ok (fy : ℝ → ℝ → ℝ) (T y pmax p1 y1 p2 y2 : ℝ) (c : Bracket ℝ) (hm : (P_MIN2 : ℝ) ≤ pmax)
    (h : bracket_reg2 fy T y pmax p1 y1 p2 y2 = some c) : (P_MIN2 : ℝ) ≤ p2 → p2 ≤ pmax → c.Ok P_MIN2 pmax := by
  refine bracket_reg2.partial_correctness fy T y pmax (fun _ _ p2 _ c => (P_MIN2 : ℝ) ≤ p2 → p2 ≤ pmax → c.Ok P_MIN2 pmax)
    ?_ p1 y1 p2 y2 c h
  intro loop ih p1 y1 p2 y2 c hc h1 h2
  have h0 : (0 : ℝ) < P_MIN2 := by norm_num [P_MIN2]
  have hq : (P_MIN2 : ℝ) ≤
      (if (Flt.lt p2 1.0) = true then p2 * 5.0 else if (Flt.lt 1.0 p2) = true then p2 + 1.0 else p2) := by
    split_ifs <;> norm_num <;> linarith
  obtain ⟨q, e⟩ : ∃ q, (if (Flt.lt p2 1.0) = true then p2 * 5.0 else if (Flt.lt 1.0 p2) = true then p2 + 1.0 else p2) = q :=
    ⟨_, rfl⟩
  rw [e] at hq
  simp only [e] at hc
  by_cases hb : Flt.le pmax q = true
  · simp only [hb, if_true] at hc
    split at hc
    · cases hc; exact ⟨hm, le_rfl⟩
    · simp only [ite_self, if_true] at hc
      cases hc; exact ⟨h1, hm, le_rfl⟩
  · have hq' : q ∈ Icc (P_MIN2 : ℝ) pmax := by
      simp only [real_le, decide_eq_true_eq, not_le] at hb
      exact ⟨hq, hb.le⟩
    rw [Bool.not_eq_true] at hb
    simp only [hb, Bool.false_eq_true, if_false] at hc
    split at hc
    · cases hc; exact hq'
    · split at hc
      · cases hc; exact ⟨h1, hq'⟩
      · exact ih _ _ _ _ _ hc hq'.1 hq'.2

private theorem P2 {p P : ℝ} (h : p ∈ Icc (P_MIN2 : ℝ) P) : 1e-8 ≤ p ∧ p ≤ P := by
  obtain ⟨a, b⟩ := h
  unfold P_MIN2 at a
  norm_num at *
  exact ⟨a, b⟩

private theorem m5 (T : ℝ) : (P_MIN2 * 5.0 : ℝ) ∈ Icc (P_MIN2 : ℝ) (T2pmax_reg2 T) := by
  have := pmax_ge T
  constructor
  · norm_num [P_MIN2]
  · unfold P_MIN2; norm_num at *; linarith

/-- **Region 2**, pressures by `tv`, `th`, `ts`: between 1e-8 MPa and the upper limit of region 2. -/
theorem C33_region2_P_partial (f : Fn) (hf : f = .tv ∨ f = .th ∨ f = .ts) (t y : ℝ) (h1 : 0 ≤ t) (h2 : t ≤ 800) :
    ∃ p P, f.call t y Doc.idP 2 = some p ∧ UpperP2 (t + 273.15) P ∧
      ((1e-8 ≤ p ∧ p ≤ P) ∨ Reproduces 2 f.id2 p t y) := by
  have hu := upper (T := t + 273.15) (by linarith) (by norm_num; linarith)
  have hl := lim2 (t + 273.15)
  rcases hf with rfl | rfl | rfl
  · obtain ⟨p, hp⟩ := Option.isSome_iff_exists.mp (Tv2p_reg2_returns (t + 273.15) y)
    refine ⟨p, _, ?_, hu, ?_⟩
    · show (Tv2p_reg2 (t + 273.15) y >>= fun p => some p) = some p
      rw [hp]; rfl
    · unfold Tv2p_reg2 at hp
      simp only at hp
      split at hp
      · cases hp; exact .inl (P2 ⟨le_rfl, hl⟩)
      · split at hp
        · cases hp; exact .inl (P2 (m5 _))
        · have main : ∀ c : Bracket ℝ, c.Ok P_MIN2 (T2pmax_reg2 (t + 273.15)) → tail2v (t + 273.15) y c = some p →
              ((1e-8 ≤ p ∧ p ≤ T2pmax_reg2 (t + 273.15)) ∨ Reproduces 2 Fn.tv.id2 p t y) := by
            intro c ok hg
            cases c with
            | ret q => cases hg; exact .inl (P2 ok)
            | found p1 v1 p2 v2 =>
              refine ite_elim hg (fun hs hg => ?_) (fun hg => ?_)
              · cases hg
                exact .inr ⟨_, rfl, esp hs⟩
              · cases hg; exact .inl (P2 (clamp_mem hl))
          split at hp
          · exact main (.found _ _ _ _) ⟨le_rfl, m5 _⟩ hp
          · obtain ⟨c, hc, hg⟩ := ret_of_bind hp
            have ok := bracket2_ok _ _ _ _ _ _ _ _ _ hl hc (m5 (t + 273.15)).1 (m5 _).2
            cases c with
            | ret q => exact main (.ret q) ok hg
            | found => exact main (.found _ _ _ _) ok hg
  · obtain ⟨p, hp⟩ := Option.isSome_iff_exists.mp (Th2p_reg2_returns (t + 273.15) y)
    refine ⟨p, _, ?_, hu, ?_⟩
    · show (Th2p_reg2 (t + 273.15) y >>= fun p => some p) = some p
      rw [hp]; rfl
    · unfold Th2p_reg2 at hp
      simp only at hp
      split at hp
      · cases hp; exact .inl (P2 ⟨le_rfl, hl⟩)
      · split at hp
        · cases hp; exact .inl (P2 (m5 _))
        · have main : ∀ c : Bracket ℝ, c.Ok P_MIN2 (T2pmax_reg2 (t + 273.15)) → tail2h (t + 273.15) y c = some p →
              ((1e-8 ≤ p ∧ p ≤ T2pmax_reg2 (t + 273.15)) ∨ Reproduces 2 Fn.th.id2 p t y) := by
            intro c ok hg
            cases c with
            | ret q => cases hg; exact .inl (P2 ok)
            | found p1 v1 p2 v2 =>
              refine ite_elim hg (fun hs hg => ?_) (fun hg => ?_)
              · cases hg
                exact .inr ⟨_, rfl, esp hs⟩
              · cases hg; exact .inl (P2 (clamp_seq hl))
          split at hp
          · exact main (.found _ _ _ _) ⟨le_rfl, m5 _⟩ hp
          · obtain ⟨c, hc, hg⟩ := ret_of_bind hp
            have ok := bracket2_ok _ _ _ _ _ _ _ _ _ hl hc (m5 (t + 273.15)).1 (m5 _).2
            cases c with
            | ret q => exact main (.ret q) ok hg
            | found => exact main (.found _ _ _ _) ok hg
  · refine ⟨Ts2p_reg2 (t + 273.15) y, _, rfl, hu, ?_⟩
    exact ite_ok (P := fun p => (1e-8 ≤ p ∧ p ≤ T2pmax_reg2 (t + 273.15)) ∨ Reproduces 2 Doc.idS p t y)
      (fun hs => .inr ⟨_, rfl, esp hs⟩) (.inl (P2 (clamp_mem hl)))

private theorem lower {p : ℝ} (h1 : 0 < p) (h2 : p ≤ 100) : LowerT2 p (p2Tmin_reg2 p) ∧ p2Tmin_reg2 p ≤ 1073.15 := by
  unfold p2Tmin_reg2 LowerT2
  simp only [real_lt, real_le, Bool.and_eq_true, decide_eq_true_eq]
  by_cases c1 : p < 0.000611213
  · rw [if_pos ⟨by norm_num; exact h1, c1⟩]
    exact ⟨.inl ⟨c1, by norm_num [T_MIN2]⟩, by norm_num [T_MIN2]⟩
  · rw [if_neg (fun h => c1 h.2)]
    rw [not_lt] at c1
    have e : p_saturation (623.15 : ℝ) = Sat.psat 623.15 := by
      rw [Sat.p_saturation_eq, if_neg (by norm_num)]
    by_cases c2 : p ≤ p_saturation 623.15
    · rw [if_pos ⟨c1, c2⟩]
      rw [e] at c2
      have := Sat.psat_623.2
      have hp1 : 0.000611212677 ≤ p := le_trans (by norm_num) c1
      have hp2 : p ≤ 22.064 := by norm_num at *; linarith
      obtain ⟨T, hT, rfl⟩ := Sat.exists_T hp1 hp2
      rw [Sat.T_saturation_psat hT hp1 hp2]
      refine ⟨.inr (.inl ?_), by have := hT.2; norm_num; linarith⟩
      have hm := Sat.th_mem hT
      refine ⟨Sat.bt (Sat.th T), Sat.th T, (Sat.bt_pos _).le, rfl, rfl, ?_⟩
      have := Sat.bt_root hm.1 hm.2
      rw [← this]; unfold Sat.Qf Sat.qA Sat.qB Sat.qC; norm_num; ring
    · rw [if_neg (fun h => c2 h.2)]
      rw [not_le, e] at c2
      have := Sat.psat_623.1
      refine ⟨.inr (.inr ?_), ?_⟩
      · have := C27_p_T_p p (by norm_num at *; linarith) h2
        have e2 : ∀ T : ℝ, B23_T2p T = Domain.pB23 T := fun T => by
          simp only [B23_T2p, nthF, B23_T2p_n23, List.getD_cons_succ, List.getD_cons_zero, Domain.pB23]
          norm_num; ring
        rwa [e2] at this
      · have h3 := C27_T_p_T 863.15 (by norm_num) (by norm_num)
        have h4 : (100 : ℝ) < B23_T2p 863.15 := by
          simp only [B23_T2p, nthF, B23_T2p_n23, List.getD_cons_succ, List.getD_cons_zero]
          norm_num
        have h5 := C27_p2T_increasing p (B23_T2p 863.15) (by norm_num at *; linarith) (by linarith)
        have := (abs_le.mp h3).2
        norm_num at *; linarith

private theorem zoom_mem (p v Tm T v0 : ℝ) : pv2T_reg2_zoom p v Tm 1000 0 T v0 ∈ Icc (T - 0.001) (T + 0.001) := by
  unfold pv2T_reg2_zoom
  simp only [show 0 + 1 < 1000 by norm_num, if_true]
  split_ifs <;> constructor <;> norm_num <;> linarith

private theorem self_mem (T : ℝ) : T ∈ Icc (T - 0.001) (T + 0.001) := by constructor <;> norm_num

private theorem zoomOk {lo T z : ℝ} (hc : T ∈ Icc lo (T_MAX2 : ℝ)) (hz : z ∈ Icc (T - 0.001) (T + 0.001)) :
    lo - 0.001 ≤ z ∧ z - 273.15 ≤ 800.001 := by
  have hM : (T_MAX2 : ℝ) = 1073.15 := by norm_num [T_MAX2]
  rw [hM] at hc
  exact ⟨by linarith [hz.1, hc.1], by linarith [hz.2, hc.2]⟩

private theorem reproduces2 {p T v : ℝ} (h : |v - pT2v_reg2 p T| < 1e-8) : Reproduces 2 Doc.idV p (T - 273.15) v :=
  ⟨_, rfl, by show |v - pT2v_reg2 p (T - 273.15 + 273.15)| < _; rw [sub_add_cancel]; exact h⟩

/-- **Region 2**, temperatures by `pv`: at most 0.001 K outside the limits of region 2. -/
theorem C33_region2_T_partial (p v : ℝ) (h1 : 0 < p) (h2 : p ≤ 100) :
    ∃ t T, Fn.pv.call p v Doc.idT 2 = some t ∧ LowerT2 p T ∧
      ((T - 0.001 ≤ t + 273.15 ∧ t ≤ 800.001) ∨ Reproduces 2 Doc.idV p t v) := by
  obtain ⟨hl, hm⟩ := lower h1 h2
  refine ⟨pv2T_reg2 p v - 273.15, p2Tmin_reg2 p, rfl, hl, ?_⟩
  have hm : p2Tmin_reg2 p ≤ (T_MAX2 : ℝ) := by unfold T_MAX2; norm_num at *; exact hm
  have hM : (T_MAX2 : ℝ) = 1073.15 := by norm_num [T_MAX2]
  refine ite_ok (P := fun T => (p2Tmin_reg2 p - 0.001 ≤ T - 273.15 + 273.15 ∧ T - 273.15 ≤ 800.001) ∨
    Reproduces 2 Doc.idV p (T - 273.15) v) (fun hs => .inr (reproduces2 (esp hs))) (.inl ?_)
  · rw [sub_add_cancel]
    exact ite_ok (P := fun T => p2Tmin_reg2 p - 0.001 ≤ T ∧ T - 273.15 ≤ 800.001)
      (fun _ => zoomOk (clamp_seq hm) (zoom_mem _ _ _ _ _)) (zoomOk (clamp_seq hm) (self_mem _))

/-! ### region 1 -/

private theorem psat1 {t : ℝ} (h1 : 0 ≤ t) (h2 : t ≤ 350) :
    Domain.IsSat (p_saturation (t + 273.15)) (t + 273.15) ∧ p_saturation (t + 273.15) ≤ (P_MAX1 : ℝ) := by
  have e : p_saturation (t + 273.15) = Sat.psat (t + 273.15) := by
    rw [Sat.p_saturation_eq, if_neg (by push Not; constructor <;> norm_num at * <;> linarith)]
  rw [e]
  have := Domain.isSat_psat (T := t + 273.15) (by constructor <;> norm_num at * <;> linarith)
  exact ⟨this, this.2.trans (by norm_num [P_MAX1])⟩

private theorem P1 {p lo : ℝ} (h : p ∈ Icc lo (P_MAX1 : ℝ)) : lo ≤ p ∧ p ≤ 100 :=
  ⟨h.1, h.2.trans (by norm_num [P_MAX1])⟩

/-- **Region 1**, pressures by `th`: between saturation and 100 MPa. -/
theorem C33_region1_th (t h : ℝ) (h1 : 0 ≤ t) (h2 : t ≤ 350) :
    ∃ p ps, Fn.th.call t h Doc.idP 1 = some p ∧ Domain.IsSat ps (t + 273.15) ∧ ps ≤ p ∧ p ≤ 100 := by
  obtain ⟨hs, hM⟩ := psat1 h1 h2
  have hl : p_saturation (t + 273.15) ≤ (P_MAX1 : ℝ) := hM
  have h100 : (P_MAX1 : ℝ) = 100 := by norm_num [P_MAX1]
  refine ⟨Th2p_reg1 (t + 273.15) h, _, rfl, hs, ?_⟩
  refine ite_ok (P := fun p => p_saturation (t + 273.15) ≤ p ∧ p ≤ 100) (fun _ => ⟨le_rfl, h100 ▸ hl⟩) ?_
  refine ite_ok (P := fun p => p_saturation (t + 273.15) ≤ p ∧ p ≤ 100) (fun _ => ⟨hl, h100.le⟩) ?_
  exact P1 (clamp_seq' hl)

/-- **Region 1**, pressures by `ts`. -/
theorem C33_region1_ts_partial (t s : ℝ) (h1 : 0 ≤ t) (h2 : t ≤ 350) :
    ∃ p ps, Fn.ts.call t s Doc.idP 1 = some p ∧ Domain.IsSat ps (t + 273.15) ∧
      ((ps ≤ p ∧ p ≤ 100) ∨ Reproduces 1 Doc.idS p t s) := by
  obtain ⟨hs, hM⟩ := psat1 h1 h2
  have hl : p_saturation (t + 273.15) ≤ (P_MAX1 : ℝ) := hM
  have h100 : (P_MAX1 : ℝ) = 100 := by norm_num [P_MAX1]
  refine ⟨Ts2p_reg1 (t + 273.15) s, _, rfl, hs, ?_⟩
  refine ite_ok (P := fun p => (p_saturation (t + 273.15) ≤ p ∧ p ≤ 100) ∨ Reproduces 1 Doc.idS p t s)
    (fun hs => .inr ⟨_, rfl, esp hs⟩) (.inl ?_)
  exact P1 (clamp_mem' hl)

private theorem up_mem (p v : ℝ) : ∀ (n : ℕ) (T r : ℝ), T ∈ Icc (273.15 : ℝ) 623.15 →
    match pv2T_reg1_up p v n T r with
    | .inl T => T ∈ Icc (273.15 : ℝ) 623.16
    | .inr (T, _) => T ∈ Icc (273.15 : ℝ) 623.15 := by
  intro n
  induction n with
  | zero => intro T r h; exact h
  | succ n ih =>
    intro T r h
    rw [pv2T_reg1_up]
    have e : (T_MAX1 : ℝ) = 623.15 := by norm_num [T_MAX1]
    simp only [e]
    have h' : T + 0.01 ∈ Icc (273.15 : ℝ) 623.16 := by
      obtain ⟨a, b⟩ := h
      constructor <;> norm_num at * <;> linarith
    by_cases c : Flt.lt (623.15 : ℝ) (T + 0.01) = true
    · rw [if_pos c]; exact h'
    · rw [if_neg c]
      by_cases c2 : Flt.lt (fabs ((v - pT2v_reg1 p (T + 0.01)) / v)) (1.0e-8 : ℝ) = true
      · rw [if_pos c2]; exact h'
      · rw [if_neg c2]
        refine ih _ _ ⟨h'.1, ?_⟩
        simpa using c

private theorem down_mem (p v : ℝ) : ∀ (n : ℕ) (T : ℝ), T ∈ Icc (273.15 : ℝ) 623.15 →
    pv2T_reg1_down p v n T ∈ Icc (273.15 : ℝ) 623.15 ∨ pv2T_reg1_down p v n T = -9999 := by
  intro n
  induction n with
  | zero => intro T h; right; simp [pv2T_reg1_down, ofI32, INVALID_VALUE]
  | succ n ih =>
    intro T h
    rw [pv2T_reg1_down]
    have e : (T_MIN1 : ℝ) = 273.15 := by norm_num [T_MIN1]
    simp only [e]
    by_cases c : Flt.lt (T - 0.001) (273.15 : ℝ) = true
    · rw [if_pos c]; exact .inl ⟨le_rfl, by norm_num⟩
    · rw [if_neg c]
      have h' : T - 0.001 ∈ Icc (273.15 : ℝ) 623.15 := ⟨by simpa using c, by have := h.2; norm_num at *; linarith⟩
      by_cases c2 : Flt.lt (fabs ((v - pT2v_reg1 p (T - 0.001)) / v)) (1.0e-8 : ℝ) = true
      · rw [if_pos c2]; exact .inl h'
      · rw [if_neg c2]; exact ih _ h'

private theorem refine_mem (p v T : ℝ) : pv2T_reg1_refine p v T ∈ Icc (273.15 : ℝ) 623.16 ∨ pv2T_reg1_refine p v T = -9999 := by
  have e1 : (T_MIN1 : ℝ) = 273.15 := by norm_num [T_MIN1]
  have e2 : (T_MAX1 : ℝ) = 623.15 := by norm_num [T_MAX1]
  refine ite_ok (P := fun T => T ∈ Icc (273.15 : ℝ) 623.16 ∨ T = -9999) (fun h => ?_) ?_
  · simp only [real_le, real_lt, Bool.and_eq_true, decide_eq_true_eq, e1, e2] at h
    exact .inl ⟨h.1.1, h.1.2.trans (by norm_num)⟩
  · have hc : (if Flt.lt T_MAX1 (if Flt.lt T T_MIN1 = true then T_MIN1 else T) = true then T_MAX1
        else (if Flt.lt T T_MIN1 = true then T_MIN1 else T)) ∈ Icc (273.15 : ℝ) 623.15 := by
      have := clamp_seq (x := T) (show (T_MIN1 : ℝ) ≤ T_MAX1 by norm_num [e1, e2])
      rwa [← e1, ← e2]
    generalize (if Flt.lt T_MAX1 (if Flt.lt T T_MIN1 = true then T_MIN1 else T) = true then T_MAX1
        else (if Flt.lt T T_MIN1 = true then T_MIN1 else T)) = T' at hc
    have hu := up_mem p v (1000000 + 1) T' ((v - pT2v_reg1 p T') / v) hc
    have hd : ∀ (T r : ℝ), T ∈ Icc (273.15 : ℝ) 623.15 →
        (if Flt.lt r (0.0 : ℝ) = true then pv2T_reg1_down p v (1000000 + 1) T else ofI32 INVALID_VALUE) ∈ Icc (273.15 : ℝ) 623.16 ∨
        (if Flt.lt r (0.0 : ℝ) = true then pv2T_reg1_down p v (1000000 + 1) T else ofI32 INVALID_VALUE) = -9999 := by
      intro T r hT
      refine ite_ok (P := fun T => T ∈ Icc (273.15 : ℝ) 623.16 ∨ T = -9999) (fun _ => ?_)
        (.inr (by simp [ofI32, INVALID_VALUE]))
      exact (down_mem p v _ T hT).imp (fun h => ⟨h.1, h.2.trans (by norm_num)⟩) (fun h => h)
    by_cases c : Flt.lt (0.0 : ℝ) ((v - pT2v_reg1 p T') / v) = true
    · rw [if_pos c]
      generalize pv2T_reg1_up p v (1000000 + 1) T' ((v - pT2v_reg1 p T') / v) = x at hu
      rcases x with T | ⟨T, r⟩
      · exact .inl hu
      · exact hd T r hu
    · rw [if_neg c]
      exact hd T' _ hc

/-- **Region 1**, temperatures by `pv`: at most 0.01 K above the limit, or the error value −9999 shifted
by the conversion from kelvin to degrees Celsius. -/
theorem C33_region1_T_partial (p v : ℝ) :
    ∃ t, Fn.pv.call p v Doc.idT 1 = some t ∧ ((0 ≤ t ∧ t ≤ 350.01) ∨ t = -10272.15) := by
  have key : pv2T_reg1 p v ∈ Icc (273.15 : ℝ) 623.16 ∨ pv2T_reg1 p v = -9999 := by
    exact refine_mem p v _
  refine ⟨pv2T_reg1 p v - 273.15, rfl, ?_⟩
  rcases key with ⟨a, b⟩ | h
  · left; constructor <;> norm_num at * <;> linarith
  · right; rw [h]; norm_num

private theorem rtsec1_pos (g : ℝ → ℝ → ℝ) (c fr x1 x2 f1 f2 tol : ℝ) (n : ℤ) (h1 : 0 < x1) (h2 : 0 < x2) :
    0 < rtsec1 g c fr x1 x2 f1 f2 tol n := by
  have loop : ∀ (n : ℕ) (dx xl x fl f : ℝ), 0 < x → 0 < rtsec1_loop g c fr tol n dx xl x fl f := by
    intro n
    induction n with
    | zero => intro dx xl x fl f h; exact h
    | succ n ih =>
      intro dx xl x fl f h
      rw [rtsec1_loop]
      refine ite_ok (P := fun x => 0 < x) (fun _ => ?_) h
      apply ih
      refine ite_ok' (fun _ => by norm_num) (fun h => ?_)
      simp only [real_le, decide_eq_true_eq, not_le] at h
      norm_num at h; exact h
  unfold rtsec1
  by_cases hs : Flt.lt (fabs f1) (fabs f2) = true
  · simp only [hs, if_true]
    exact ite_ok (P := fun x => 0 < x) (fun _ => loop _ _ _ _ _ _ h1) h1
  · rw [Bool.not_eq_true] at hs
    simp only [hs, Bool.false_eq_true, if_false]
    exact ite_ok (P := fun x => 0 < x) (fun _ => loop _ _ _ _ _ _ h2) h2

/-- **Region 1**, pressures by `tv`: positive (no other limit is enforced). -/
theorem C33_region1_tv_partial (t v : ℝ) (h1 : 0 ≤ t) (h2 : t ≤ 350) :
    ∃ p, Fn.tv.call t v Doc.idP 1 = some p ∧ 0 < p := by
  obtain ⟨hs, -⟩ := psat1 h1 h2
  have e : p_saturation (t + 273.15) = Sat.psat (t + 273.15) := by
    rw [Sat.p_saturation_eq, if_neg (by push Not; constructor <;> norm_num at * <;> linarith)]
  have h0 : 0 < 0.3 * (p_saturation (t + 273.15) + (P_MAX1 : ℝ)) := by
    rw [e]
    have := Sat.psat_pos (t + 273.15)
    have : (0 : ℝ) < P_MAX1 := by norm_num [P_MAX1]
    positivity
  exact ⟨_, rfl, rtsec1_pos _ _ _ _ _ _ _ _ _ h0 (mul_pos (by norm_num) h0)⟩

/-! ### concrete cases -/

example : ∃ p P, Fn.tv.call 300 0.1 Doc.idP 2 = some p ∧ UpperP2 (300 + 273.15) P ∧
    ((1e-8 ≤ p ∧ p ≤ P) ∨ Reproduces 2 Doc.idV p 300 0.1) :=
  C33_region2_P_partial .tv (.inl rfl) 300 0.1 (by norm_num) (by norm_num)

example : ∃ p ps, Fn.th.call 100 500 Doc.idP 1 = some p ∧ Domain.IsSat ps (100 + 273.15) ∧ ps ≤ p ∧ p ≤ 100 :=
  C33_region1_th 100 500 (by norm_num) (by norm_num)

end If97
