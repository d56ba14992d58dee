import Verif.Lemmas.Detect

/-!
The equations of regions 2 and 5 along 800 °C.  At fixed temperatures the difference of the two equations is a
polynomial in the pressure with rational coefficients; the coefficients are bounded from below by integers
(unit 10⁻⁹⁰, variable 4p) and the sign is checked on the 200 cells of 0.25 MPa.
-/

namespace If97.Iv
open Set

/-- numerator and denominator of (a/b)^J -/
def pwN (a b : Nat) (J : Int) : Nat := if 0 ≤ J then a ^ J.toNat else b ^ (-J).toNat
def pwD (a b : Nat) (J : Int) : Nat := if 0 ≤ J then b ^ J.toNat else a ^ (-J).toNat

/-- lower bound of 10⁹⁰ w c/d (a/b)^J (e/f)^K / g^I -/
def loC (w : Int) (g a b e f : Nat) (m : SM) : Int :=
  (10 ^ 90 * w * m.c * (pwN a b m.J * pwN e f m.K : Nat)) / (m.d * pwD a b m.J * pwD e f m.K * g ^ m.I : Nat)

/-- add `c` to the coefficient of degree `i` -/
def addAt : Nat → Int → List Int → List Int
  | 0, c, [] => [c]
  | 0, c, a :: l => (a + c) :: l
  | i + 1, c, [] => 0 :: addAt i c []
  | i + 1, c, a :: l => a :: addAt i c l

def addS (w : Int) (g a b e f : Nat) : List SM → List Int → List Int
  | [], L => L
  | m :: l, L => addS w g a b e f l (addAt m.I (loC w g a b e f m) L)

noncomputable def evL : List Int → ℝ → ℝ
  | [], _ => 0
  | c :: l, x => c + x * evL l x

/-- lower bound on [A, B] of the polynomial times x^i, pa = A^i, pb = B^i -/
def lowL (A B : Nat) : List Int → Nat → Nat → Int
  | [], _, _ => 0
  | c :: l, pa, pb => c * (if 0 ≤ c then pa else pb : Nat) + lowL A B l (pa * A) (pb * B)

/-- positive on the cells [k, k+1], k < n -/
def cells (L : List Int) : Nat → Bool
  | 0 => true
  | n + 1 => decide (0 < lowL n (n + 1) L 1 1) && cells L n

theorem pw_val (a b : Nat) (ha : a ≠ 0) (hb : b ≠ 0) (J : Int) :
    ((a : ℝ) / b) ^ J = (pwN a b J : ℝ) / pwD a b J ∧ pwD a b J ≠ 0 := by
  unfold pwN pwD
  split_ifs with h
  · refine ⟨?_, pow_ne_zero _ hb⟩
    conv_lhs => rw [← Int.toNat_of_nonneg h]
    rw [zpow_natCast, div_pow]; push_cast; rfl
  · refine ⟨?_, pow_ne_zero _ ha⟩
    have h' : 0 ≤ -J := by omega
    conv_lhs => rw [show J = -(((-J).toNat : Nat) : Int) by rw [Int.toNat_of_nonneg h', neg_neg]]
    rw [zpow_neg, zpow_natCast, div_pow, inv_div]; push_cast; rfl

theorem loC_le (w : Int) (g a b e f : Nat) (hg : g ≠ 0) (ha : a ≠ 0) (hb : b ≠ 0) (he : e ≠ 0) (hf : f ≠ 0) (m : SM)
    (hd : m.d ≠ 0) {X : ℝ} (hX : 0 ≤ X) :
    (loC w g a b e f m : ℝ) * X ^ m.I ≤ 10 ^ 90 * w * m.ev (X / g) ((a : ℝ) / b) ((e : ℝ) / f) := by
  obtain ⟨h1, h1'⟩ := pw_val a b ha hb m.J
  obtain ⟨h2, h2'⟩ := pw_val e f he hf m.K
  have hD : (0 : ℝ) < ((m.d * pwD a b m.J * pwD e f m.K * g ^ m.I : Nat) : ℝ) := by
    have := mul_ne_zero (mul_ne_zero (mul_ne_zero hd h1') h2') (pow_ne_zero m.I hg)
    exact_mod_cast Nat.pos_of_ne_zero this
  have key : (loC w g a b e f m : ℝ) ≤
      (10 ^ 90 * w * m.c * (pwN a b m.J * pwN e f m.K : Nat) : ℝ) / (m.d * pwD a b m.J * pwD e f m.K * g ^ m.I : Nat) := by
    rw [le_div_iff₀ hD]
    unfold loC
    exact_mod_cast Int.ediv_mul_le _ (by exact_mod_cast hD.ne')
  refine (mul_le_mul_of_nonneg_right key (pow_nonneg hX _)).trans (le_of_eq ?_)
  unfold SM.ev
  rw [h1, h2, div_pow]
  push_cast
  have e1 : (m.d : ℝ) ≠ 0 := by exact_mod_cast hd
  have e2 : (pwD a b m.J : ℝ) ≠ 0 := by exact_mod_cast h1'
  have e3 : (pwD e f m.K : ℝ) ≠ 0 := by exact_mod_cast h2'
  have e4 : (g : ℝ) ≠ 0 := by exact_mod_cast hg
  field_simp

theorem evL_addAt (i : Nat) (c : Int) (L : List Int) (X : ℝ) : evL (addAt i c L) X = evL L X + c * X ^ i := by
  induction i generalizing L with
  | zero => cases L <;> simp [addAt, evL]; ring
  | succ i ih => cases L <;> simp [addAt, evL, ih, pow_succ] <;> ring

theorem evL_addS (w : Int) (g a b e f : Nat) (hg : g ≠ 0) (ha : a ≠ 0) (hb : b ≠ 0) (he : e ≠ 0) (hf : f ≠ 0) (l : List SM)
    (hd : ∀ m ∈ l, m.d ≠ 0) (L : List Int) {X : ℝ} (hX : 0 ≤ X) :
    evL (addS w g a b e f l L) X ≤ evL L X + 10 ^ 90 * w * evS l (X / g) ((a : ℝ) / b) ((e : ℝ) / f) := by
  induction l generalizing L with
  | nil => simp [addS]
  | cons m l ih =>
    have h := ih (fun m hm => hd m (List.mem_cons_of_mem _ hm)) (addAt m.I (loC w g a b e f m) L)
    have h' := loC_le w g a b e f hg ha hb he hf m (hd m List.mem_cons_self) hX
    rw [evL_addAt] at h
    rw [evS_cons, addS]
    linarith

theorem lowL_le (A B : Nat) (L : List Int) (pa pb : Nat) {X q : ℝ} (hA : (A : ℝ) ≤ X) (hB : X ≤ B)
    (ha : (pa : ℝ) ≤ q) (hb : q ≤ pb) : (lowL A B L pa pb : ℝ) ≤ q * evL L X := by
  induction L generalizing pa pb q with
  | nil => simp [lowL, evL]
  | cons c l ih =>
    have hX : (0 : ℝ) ≤ X := le_trans (Nat.cast_nonneg A) hA
    have hq : (0 : ℝ) ≤ q := le_trans (Nat.cast_nonneg pa) ha
    have h := ih (pa * A) (pb * B) (q := q * X)
      (by push_cast; exact mul_le_mul ha hA (Nat.cast_nonneg A) hq)
      (by push_cast; exact mul_le_mul hb hB hX (hq.trans hb))
    have hc : (c : ℝ) * ((if 0 ≤ c then pa else pb : Nat) : ℝ) ≤ q * c := by
      split_ifs with h0
      · have : (0 : ℝ) ≤ c := by exact_mod_cast h0
        nlinarith
      · have : (c : ℝ) ≤ 0 := by exact_mod_cast (by omega : c ≤ 0)
        nlinarith
    simp only [lowL, evL]; push_cast
    push_cast at hc
    linarith

theorem cells_pos (L : List Int) (n : Nat) (h : cells L n = true) {X : ℝ} (h0 : 0 ≤ X) (h1 : X ≤ n) (hn : n ≠ 0) :
    0 < evL L X := by
  induction n with
  | zero => exact absurd rfl hn
  | succ n ih =>
    simp only [cells, Bool.and_eq_true, decide_eq_true_eq] at h
    rcases le_total X n with hX | hX
    · rcases Nat.eq_zero_or_pos n with rfl | hp
      · have e := lowL_le 0 1 L 1 1 (X := X) (q := 1) (by simpa using h0) (by simp at hX; simp; linarith) (by simp) (by simp)
        have : (0 : ℝ) < lowL 0 1 L 1 1 := by exact_mod_cast h.1
        linarith
      · exact ih h.2 hX (by omega)
    · have e := lowL_le n (n + 1) L 1 1 (X := X) (q := 1) hX (by exact_mod_cast h1) (by simp) (by simp)
      have : (0 : ℝ) < lowL n (n + 1) L 1 1 := by exact_mod_cast h.1
      linarith

/-- the weighted difference u·l5 − w·l2 of a list of region 5 at τ = a5/b5 and one of region 2 at τ − 0.5 = a/b, τ = e/f -/
def diff (u w : Int) (g a5 b5 a b e f : Nat) (l5 l2 : List SM) : List Int :=
  addS u g a5 b5 a5 b5 l5 (addS (-w) g a b e f l2 [])

section
variable {u w : Int} {g a5 b5 a b e f : Nat} {l5 l2 : List SM} (hz : a5 ≠ 0 ∧ b5 ≠ 0 ∧ a ≠ 0 ∧ b ≠ 0 ∧ e ≠ 0 ∧ f ≠ 0)
  (h5 : ∀ m ∈ l5, m.d ≠ 0) (h2 : ∀ m ∈ l2, m.d ≠ 0)
include hz h5 h2

theorem diff_le (hg : g ≠ 0) {p : ℝ} (h0 : 0 ≤ p) :
    evL (diff u w g a5 b5 a b e f l5 l2) (g * p) ≤ 10 ^ 90 * (u * evS l5 p ((a5 : ℝ) / b5) ((a5 : ℝ) / b5) -
      w * evS l2 p ((a : ℝ) / b) ((e : ℝ) / f)) := by
  obtain ⟨z1, z2, z3, z4, z5, z6⟩ := hz
  have hg' : (0 : ℝ) < g := by exact_mod_cast Nat.pos_of_ne_zero hg
  have hX : (0 : ℝ) ≤ g * p := by positivity
  have e1 := evL_addS u g a5 b5 a5 b5 hg z1 z2 z1 z2 l5 h5 (addS (-w) g a b e f l2 []) hX
  have e2 := evL_addS (-w) g a b e f hg z3 z4 z5 z6 l2 h2 [] hX
  rw [mul_div_cancel_left₀ _ hg'.ne'] at e1 e2
  unfold diff
  simp only [evL, zero_add] at e2
  push_cast at *
  linarith

theorem diff_pos {n : Nat} (h : cells (diff u w g a5 b5 a b e f l5 l2) n = true) (hg : g ≠ 0) (hn : n ≠ 0) {p : ℝ}
    (h0 : 0 ≤ p) (h1 : g * p ≤ n) :
    (w : ℝ) * evS l2 p ((a : ℝ) / b) ((e : ℝ) / f) < u * evS l5 p ((a5 : ℝ) / b5) ((a5 : ℝ) / b5) := by
  have e0 := cells_pos _ n h (by positivity) h1 hn
  have e1 := diff_le (u := u) (w := w) hz h5 h2 hg h0
  nlinarith

theorem diff_at {n : Nat} (h : 0 < lowL n n (diff u w 1 a5 b5 a b e f l5 l2) 1 1) :
    (w : ℝ) * evS l2 n ((a : ℝ) / b) ((e : ℝ) / f) < u * evS l5 n ((a5 : ℝ) / b5) ((a5 : ℝ) / b5) := by
  have e0 := lowL_le n n (diff u w 1 a5 b5 a b e f l5 l2) 1 1 (X := n) (q := 1) le_rfl le_rfl (by simp) (by simp)
  have e1 := diff_le (u := u) (w := w) hz h5 h2 (g := 1) (by decide) (p := n) (by positivity)
  have e2 : (0 : ℝ) < lowL n n (diff u w 1 a5 b5 a b e f l5 l2) 1 1 := by exact_mod_cast h
  simp only [Nat.cast_one, one_mul] at e1 e0
  nlinarith
end

/-- region 2: γ_τ and τ γ_τ − γ + ln π; region 5 likewise -/
def k2h : List SM := dY (o2 ++ t2)
def k2s : List SM := ng (o2 ++ t2) ++ mZ (dY (o2 ++ t2))
def k5h : List SM := dY (o5 ++ t5)
def k5s : List SM := ng (o5 ++ t5) ++ mZ (dY (o5 ++ t5))

set_option maxRecDepth 100000 in
theorem join_h : cells (diff 1000 540 4 4000 4293 137 42926 10800 21463 k5h k2h) 200 = true := by decide +kernel
set_option maxRecDepth 100000 in
theorem join_s : cells (diff 1 1 4 4000 4293 137 42926 10800 21463 k5s k2s) 200 = true := by decide +kernel
set_option maxRecDepth 100000 in
theorem join_v : cells (diff 107330 107315 4 100000 107330 137 42926 10800 21463 l5v l2v) 200 = true := by decide +kernel
set_option maxRecDepth 100000 in
theorem gap_h : 0 < lowL 10 10 (diff (-1000) (-540) 1 100000 107316 137 42926 10800 21463 k5h k2h) 1 1 := by decide +kernel
set_option maxRecDepth 100000 in
theorem gap_s : 0 < lowL 10 10 (diff (-1) (-1) 1 100000 107316 137 42926 10800 21463 k5s k2s) 1 1 := by decide +kernel
set_option maxRecDepth 100000 in
theorem gap_v : 0 < lowL 45 45 (diff (-107316) (-107315) 1 100000 107316 137 42926 10800 21463 l5v l2v) 1 1 := by decide +kernel
set_option maxRecDepth 100000 in
theorem near_h : 0 < lowL 10 10 (diff 1000 540 1 100000 107316 1 25 27 50 k5h k2h) 1 1 := by decide +kernel
set_option maxRecDepth 100000 in
theorem near_s : 0 < lowL 10 10 (diff 1 1 1 100000 107316 1 25 27 50 k5s k2s) 1 1 := by decide +kernel
set_option maxRecDepth 100000 in
theorem near_v : 0 < lowL 45 45 (diff 107316 100000 1 100000 107316 1 25 27 50 l5v l2v) 1 1 := by decide +kernel

theorem k2h_eq (x y : ℝ) : evS k2h x (y - 0.5) y = G2.gt x y := by
  simp only [k2h, dY_append, G2, idealGibbs, t2_eq, tab_j _ _ y noZ_2, o2_1 x]
theorem k5h_eq (x y : ℝ) : evS k5h x y y = G5.gt x y := by
  simp only [k5h, dY_append, G5, idealGibbs, t5_eq, tab_j _ _ y noZ_5, o5_1 x, sub_zero]
theorem k2s_eq (x y : ℝ) (hy : y ≠ 0) : evS k2s x (y - 0.5) y = y * G2.gt x y - (G2.g x y - Real.log x) := by
  simp only [k2s, evS_append, evS_ng, evS_mZ _ _ _ hy, dY_append, G2, idealGibbs, t2_eq,
    tab_j _ _ y noZ_2, tab_0 _ _ y noZ_2, o2_0 x, o2_1 x]
  ring
theorem k5s_eq (x y : ℝ) (hy : y ≠ 0) : evS k5s x y y = y * G5.gt x y - (G5.g x y - Real.log x) := by
  simp only [k5s, evS_append, evS_ng, evS_mZ _ _ _ hy, dY_append, G5, idealGibbs, t5_eq,
    tab_j _ _ y noZ_5, tab_0 _ _ y noZ_5, o5_0 x, o5_1 x, sub_zero]
  ring

theorem d_k2h : ∀ m ∈ k2h, m.d ≠ 0 := by decide +kernel
theorem d_k5h : ∀ m ∈ k5h, m.d ≠ 0 := by decide +kernel
theorem d_k2s : ∀ m ∈ k2s, m.d ≠ 0 := by decide +kernel
theorem d_k5s : ∀ m ∈ k5s, m.d ≠ 0 := by decide +kernel
theorem d_l2v : ∀ m ∈ l2v, m.d ≠ 0 := by decide +kernel
theorem d_l5v : ∀ m ∈ l5v, m.d ≠ 0 := by decide +kernel

section
variable {p : ℝ} (h0 : 0 < p) (h1 : p ≤ 50)
include h0 h1

/-- h of region 5 at 800.1 °C exceeds h of region 2 at 800 °C -/
theorem join_H : G2.H p 1073.15 < G5.H p 1073.25 := by
  have e := diff_pos (by decide) d_k5h d_k2h join_h (by decide) (by decide) h0.le (by push_cast; linarith)
  rw [show ((137 : Nat) : ℝ) / ((42926 : Nat) : ℝ) = 540 / 1073.15 - 0.5 by norm_num, show ((10800 : Nat) : ℝ) / ((21463 : Nat) : ℝ) = 540 / 1073.15 by norm_num,
    show ((4000 : Nat) : ℝ) / ((4293 : Nat) : ℝ) = 1000 / 1073.25 by norm_num, k2h_eq, k5h_eq] at e
  simp only [Gibbs.H, show G2.ps = 1 from rfl, show G2.Ts = 540 from rfl, show G5.ps = 1 from rfl, show G5.Ts = 1000 from rfl,
    div_one]
  push_cast at *
  unfold gasR
  linarith

theorem join_S : G2.S p 1073.15 < G5.S p 1073.25 := by
  have e := diff_pos (by decide) d_k5s d_k2s join_s (by decide) (by decide) h0.le (by push_cast; linarith)
  rw [show ((137 : Nat) : ℝ) / ((42926 : Nat) : ℝ) = 540 / 1073.15 - 0.5 by norm_num, show ((10800 : Nat) : ℝ) / ((21463 : Nat) : ℝ) = 540 / 1073.15 by norm_num,
    show ((4000 : Nat) : ℝ) / ((4293 : Nat) : ℝ) = 1000 / 1073.25 by norm_num, k2s_eq _ _ (by norm_num), k5s_eq _ _ (by norm_num)] at e
  simp only [Gibbs.S, show G2.ps = 1 from rfl, show G2.Ts = 540 from rfl, show G5.ps = 1 from rfl, show G5.Ts = 1000 from rfl,
    div_one]
  push_cast at *
  unfold gasR
  linarith

theorem join_V : G2.V p 1073.15 < G5.V p 1073.3 := by
  have e := diff_pos (by decide) d_l5v d_l2v join_v (by decide) (by decide) h0.le (by push_cast; linarith)
  rw [show ((137 : Nat) : ℝ) / ((42926 : Nat) : ℝ) = 540 / 1073.15 - 0.5 by norm_num, show ((10800 : Nat) : ℝ) / ((21463 : Nat) : ℝ) = 540 / 1073.15 by norm_num,
    show ((100000 : Nat) : ℝ) / ((107330 : Nat) : ℝ) = 1000 / 1073.3 by norm_num, l2v_eq _ _ _ h0.ne', l5v_eq _ _ _ h0.ne'] at e
  simp only [Gibbs.V, show G2.ps = 1 from rfl, show G2.Ts = 540 from rfl, show G5.ps = 1 from rfl, show G5.Ts = 1000 from rfl,
    div_one]
  push_cast at *
  unfold gasR
  nlinarith

end

/-- and just above 800 °C the reverse holds at some pressures -/
theorem gap_H : G5.H 10 1073.16 < G2.H 10 1073.15 := by
  have e := diff_at (by decide) d_k5h d_k2h gap_h
  rw [show ((137 : Nat) : ℝ) / ((42926 : Nat) : ℝ) = 540 / 1073.15 - 0.5 by norm_num, show ((10800 : Nat) : ℝ) / ((21463 : Nat) : ℝ) = 540 / 1073.15 by norm_num,
    show ((100000 : Nat) : ℝ) / ((107316 : Nat) : ℝ) = 1000 / 1073.16 by norm_num, k2h_eq, k5h_eq] at e
  simp only [Gibbs.H, show G2.ps = 1 from rfl, show G2.Ts = 540 from rfl, show G5.ps = 1 from rfl, show G5.Ts = 1000 from rfl,
    div_one]
  push_cast at *
  unfold gasR
  linarith

theorem gap_S : G5.S 10 1073.16 < G2.S 10 1073.15 := by
  have e := diff_at (by decide) d_k5s d_k2s gap_s
  rw [show ((137 : Nat) : ℝ) / ((42926 : Nat) : ℝ) = 540 / 1073.15 - 0.5 by norm_num, show ((10800 : Nat) : ℝ) / ((21463 : Nat) : ℝ) = 540 / 1073.15 by norm_num,
    show ((100000 : Nat) : ℝ) / ((107316 : Nat) : ℝ) = 1000 / 1073.16 by norm_num, k2s_eq _ _ (by norm_num), k5s_eq _ _ (by norm_num)] at e
  simp only [Gibbs.S, show G2.ps = 1 from rfl, show G2.Ts = 540 from rfl, show G5.ps = 1 from rfl, show G5.Ts = 1000 from rfl,
    div_one]
  push_cast at *
  unfold gasR
  linarith

theorem gap_V : G5.V 45 1073.16 < G2.V 45 1073.15 := by
  have e := diff_at (by decide) d_l5v d_l2v gap_v
  rw [show ((137 : Nat) : ℝ) / ((42926 : Nat) : ℝ) = 540 / 1073.15 - 0.5 by norm_num, show ((10800 : Nat) : ℝ) / ((21463 : Nat) : ℝ) = 540 / 1073.15 by norm_num,
    show ((100000 : Nat) : ℝ) / ((107316 : Nat) : ℝ) = 1000 / 1073.16 by norm_num, l2v_eq _ _ _ (by norm_num), l5v_eq _ _ _ (by norm_num)] at e
  simp only [Gibbs.V, show G2.ps = 1 from rfl, show G2.Ts = 540 from rfl, show G5.ps = 1 from rfl, show G5.Ts = 1000 from rfl,
    div_one]
  push_cast at *
  unfold gasR
  linarith

theorem near_H : G2.H 10 1000 < G5.H 10 1073.16 := by
  have e := diff_at (by decide) d_k5h d_k2h near_h
  rw [show ((1 : Nat) : ℝ) / ((25 : Nat) : ℝ) = 540 / 1000 - 0.5 by norm_num, show ((27 : Nat) : ℝ) / ((50 : Nat) : ℝ) = 540 / 1000 by norm_num,
    show ((100000 : Nat) : ℝ) / ((107316 : Nat) : ℝ) = 1000 / 1073.16 by norm_num, k2h_eq, k5h_eq] at e
  simp only [Gibbs.H, show G2.ps = 1 from rfl, show G2.Ts = 540 from rfl, show G5.ps = 1 from rfl, show G5.Ts = 1000 from rfl,
    div_one]
  push_cast at *
  unfold gasR
  linarith

theorem near_S : G2.S 10 1000 < G5.S 10 1073.16 := by
  have e := diff_at (by decide) d_k5s d_k2s near_s
  rw [show ((1 : Nat) : ℝ) / ((25 : Nat) : ℝ) = 540 / 1000 - 0.5 by norm_num, show ((27 : Nat) : ℝ) / ((50 : Nat) : ℝ) = 540 / 1000 by norm_num,
    show ((100000 : Nat) : ℝ) / ((107316 : Nat) : ℝ) = 1000 / 1073.16 by norm_num, k2s_eq _ _ (by norm_num), k5s_eq _ _ (by norm_num)] at e
  simp only [Gibbs.S, show G2.ps = 1 from rfl, show G2.Ts = 540 from rfl, show G5.ps = 1 from rfl, show G5.Ts = 1000 from rfl,
    div_one]
  push_cast at *
  unfold gasR
  linarith

theorem near_V : G2.V 45 1000 < G5.V 45 1073.16 := by
  have e := diff_at (by decide) d_l5v d_l2v near_v
  rw [show ((1 : Nat) : ℝ) / ((25 : Nat) : ℝ) = 540 / 1000 - 0.5 by norm_num, show ((27 : Nat) : ℝ) / ((50 : Nat) : ℝ) = 540 / 1000 by norm_num,
    show ((100000 : Nat) : ℝ) / ((107316 : Nat) : ℝ) = 1000 / 1073.16 by norm_num, l2v_eq _ _ _ (by norm_num), l5v_eq _ _ _ (by norm_num)] at e
  simp only [Gibbs.V, show G2.ps = 1 from rfl, show G2.Ts = 540 from rfl, show G5.ps = 1 from rfl, show G5.Ts = 1000 from rfl,
    div_one]
  push_cast at *
  unfold gasR
  linarith

end If97.Iv
