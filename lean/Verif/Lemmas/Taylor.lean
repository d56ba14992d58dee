import Verif.Lemmas.Pack
import Verif.Lemmas.Interval
import Mathlib.Algebra.Polynomial.Inductions
import Mathlib.Data.List.Forall2
import Mathlib.Tactic.FieldSimp
import Verif.Lemmas.Tm.Comp.Engine
import Mathlib.Algebra.GroupWithZero.Basic

/-!
# Verified Taylor models

Helper for C50 and later; nothing here refers to the model.  A Taylor model is a polynomial in two
variables u, v ∈ [-1, 1], split into its positive and negative terms and packed into two naturals
(`Lemmas/Pack.lean`), with a bound of the error.  The operations are written so that the kernel
evaluates them quickly: everything is a natural number and is evaluated eagerly (`force`).  Each
operation passes its result to a continuation and answers `false` when an overflow check fails; its
soundness theorem says that an answer `true` came from a continuation applied to a correct enclosure.
-/

namespace If97.Tm

theorem force_eq {α : Type} (n : Nat) (k : Nat → α) : force n k = k n := by
  unfold force; cases Nat.beq n (nat_lit 0) <;> rfl

structure Par.Ok (P : Par) : Prop where
  b2 : 2 ≤ P.b
  n2 : 2 ≤ P.n
  w : 2 * P.n ≤ P.w + 1
  B1 : P.B1 = 2 ^ P.b - 1
  H : P.H = 2 ^ (P.b - 1)
  mask : MaskOk P.b P.w P.n P.m P.S P.mask
  vl : MaskOk P.b P.w P.n P.m 0 P.vl
  vlH : ∀ i < P.m, ∀ j < P.w, dig P.b P.w P.vl i j < P.H
  one : P.one = 2 ^ P.S
  tU : P.tU = 2 ^ P.S * 2 ^ (P.b * P.w)
  tV : P.tV = 2 ^ P.S * 2 ^ P.b
  oneH : P.one < P.H

noncomputable def Par.phi (P : Par) : Q →+* ℕ := Tm.phi (2 ^ P.b) (2 ^ (P.b * P.w))

/-- `t` encloses the real number `x` at the point (u, v) -/
def Enc (P : Par) (u v : ℝ) (t : TM) (x : ℝ) : Prop :=
  t.nm < P.H ∧ ∃ f g : Q, Supp P.n f ∧ Supp P.n g ∧ P.phi f = t.p ∧ P.phi g = t.q ∧ nu f + nu g = t.nm ∧
    |2 ^ P.S * x - (psi u v f - psi u v g)| ≤ t.r

/-- the same before truncation, with twice the digits after the point -/
def Pre (P : Par) (u v : ℝ) (a c nt rt : ℕ) (x : ℝ) : Prop :=
  ∃ f g : Q, Supp P.w f ∧ Supp P.w g ∧ P.phi f = a ∧ P.phi g = c ∧ nu f + nu g = nt ∧
    |2 ^ P.S * 2 ^ P.S * x - (psi u v f - psi u v g)| ≤ rt

/-! ### the operations -/

theorem gd_true {c k : Bool} (h : gd c k = true) : c = true ∧ k = true := by
  cases c
  · exact absurd h (by simp [gd])
  · exact ⟨rfl, h⟩


noncomputable def Co.val (c : Co) : ℝ := (bif c.neg then -1 else 1) * ((c.n : ℝ) / c.d)

/-! ### what they compute -/

noncomputable def linV (ys : List ℝ) (l : List (Nat × Co)) : ℝ := (l.map fun e => e.2.val * ys.getD e.1 0).sum
noncomputable def powsV : List (Nat × Nat) → List ℝ → List ℝ
  | [], xs => xs
  | (i, j) :: ch, xs => powsV ch (xs.getD i 0 * xs.getD j 0 :: xs)
noncomputable def polyV (xs ys : List ℝ) (tb : List (Nat × List (Nat × Co))) : ℝ :=
  (tb.map fun e => xs.getD e.1 0 * linV ys e.2).sum

/-! ### soundness -/

section
variable {P : Par} (hP : P.Ok) {u v : ℝ} (hu : |u| ≤ 1) (hv : |v| ≤ 1)

include hP

theorem Par.Ok.H_le : P.H ≤ P.B1 := by
  have := hP.b2
  rw [hP.H, hP.B1]
  obtain ⟨b, hb⟩ : ∃ b, P.b = b + 1 := ⟨P.b - 1, by omega⟩
  rw [hb, Nat.add_sub_cancel, pow_succ]
  have : 1 ≤ 2 ^ b := Nat.one_le_two_pow
  omega

theorem Par.Ok.H_lt : P.H < 2 ^ P.b := by
  have := hP.H_le
  have h1 := hP.B1
  have : 1 ≤ 2 ^ P.b := Nat.one_le_two_pow
  omega

theorem Par.Ok.H2 : P.H + P.H = 2 ^ P.b := by
  have := hP.b2
  rw [hP.H]
  obtain ⟨b, hb⟩ : ∃ b, P.b = b + 1 := ⟨P.b - 1, by omega⟩
  rw [hb, Nat.add_sub_cancel, pow_succ]; omega

theorem nm_eq {f g : Q} {p q : ℕ} (hf : P.phi f = p) (hg : P.phi g = q) (h : nu f + nu g < P.H) :
    (p + q) % P.B1 = nu f + nu g := by
  have e := phi_mod P.b P.w (f + g)
  rw [map_add, map_add] at e
  have : (p + q) % P.B1 = (nu f + nu g) % P.B1 := by
    rw [← hf, ← hg, hP.B1]; exact e
  rw [this, Nat.mod_eq_of_lt (lt_of_lt_of_le h hP.H_le)]

include hu hv

theorem rnd_sound {a c nt rt : ℕ} {k : TM → Bool} {x : ℝ} (h : rnd P a c nt rt k = true)
    (hx : Pre P u v a c nt rt x) : ∃ t, Enc P u v t x ∧ k t = true := by
  obtain ⟨h1, h2⟩ := gd_true h
  have hnt : nt < P.H := by simpa using h1
  simp only [force_eq] at h2
  refine ⟨_, ?_, h2⟩
  obtain ⟨f, g, sf, sg, pf, pg, hn, hr⟩ := hx
  have bf : ∀ i j, (f.coeff i).coeff j < 2 ^ P.b := fun i j =>
    lt_of_le_of_lt (coeff_le_nu f i j) (by have := hP.H_lt; omega)
  have bg : ∀ i j, (g.coeff i).coeff j < 2 ^ P.b := fun i j =>
    lt_of_le_of_lt (coeff_le_nu g i j) (by have := hP.H_lt; omega)
  obtain ⟨f', rf, sf', pf', ef⟩ := trunc hP.mask sf bf
  obtain ⟨g', rg, sg', pg', eg⟩ := trunc hP.mask sg bg
  have nf : nu f = 2 ^ P.S * nu f' + nu rf := by rw [ef, map_add, map_mul, map_natCast]; simp
  have ng : nu g = 2 ^ P.S * nu g' + nu rg := by rw [eg, map_add, map_mul, map_natCast]; simp
  have hS : 0 < 2 ^ P.S := Nat.two_pow_pos _
  have le1 : nu f' ≤ 2 ^ P.S * nu f' := Nat.le_mul_of_pos_left _ hS
  have le2 : nu g' ≤ 2 ^ P.S * nu g' := Nat.le_mul_of_pos_left _ hS
  have hnm : nu f' + nu g' < P.H := by omega
  have hp : P.phi f' = Nat.shiftRight (Nat.land a P.mask) P.S := by rw [← pf]; exact pf'
  have hq : P.phi g' = Nat.shiftRight (Nat.land c P.mask) P.S := by rw [← pg]; exact pg'
  have e := nm_eq hP hp hq hnm
  refine ⟨?_, f', g', sf', sg', hp, hq, e.symm, ?_⟩
  · show (_ + _) % P.B1 < _
    rw [e]; exact hnm
  · show _ ≤ ((((rt + (nt - ((_ + _) % P.B1) <<< P.S)) >>> P.S) + 1 : ℕ) : ℝ)
    rw [e, Nat.shiftLeft_eq, Nat.shiftRight_eq_div_pow]
    set N := rt + (nt - (nu f' + nu g') * 2 ^ P.S) with hN
    have hN' : N = rt + (nu rf + nu rg) := by
      rw [hN, ← hn, nf, ng]
      have : (nu f' + nu g') * 2 ^ P.S = 2 ^ P.S * nu f' + 2 ^ P.S * nu g' := by ring
      omega
    have hdiv : (N : ℝ) ≤ 2 ^ P.S * ((N / 2 ^ P.S + 1 : ℕ) : ℝ) := by
      have := (Nat.lt_mul_div_succ N hS).le
      exact_mod_cast this
    have psf : psi u v f = 2 ^ P.S * psi u v f' + psi u v rf := by
      rw [ef, map_add, map_mul, map_natCast]; simp
    have psg : psi u v g = 2 ^ P.S * psi u v g' + psi u v rg := by
      rw [eg, map_add, map_mul, map_natCast]; simp
    have a1 := abs_psi_le rf hu hv
    have a2 := abs_psi_le rg hu hv
    have hSr : (0 : ℝ) < 2 ^ P.S := by positivity
    refine le_of_mul_le_mul_left ?_ hSr
    refine le_trans ?_ hdiv
    rw [hN']
    push_cast
    rw [← abs_of_pos hSr, ← abs_mul, abs_of_pos hSr]
    have : 2 ^ P.S * (2 ^ P.S * x - (psi u v f' - psi u v g'))
        = (2 ^ P.S * 2 ^ P.S * x - (psi u v f - psi u v g)) + (psi u v rf - psi u v rg) := by
      rw [psf, psg]; ring
    rw [this]
    refine (abs_add_le _ _).trans (add_le_add hr ((abs_sub _ _).trans (add_le_add a1 a2)))

theorem mul_sound {s t : TM} {k : TM → Bool} {x y : ℝ} (h : mul P s t k = true) (hs : Enc P u v s x)
    (ht : Enc P u v t y) : ∃ t', Enc P u v t' (x * y) ∧ k t' = true := by
  obtain ⟨p, q, r, nm⟩ := s
  obtain ⟨p', q', r', nm'⟩ := t
  simp only [mul, force_eq] at h
  refine rnd_sound hP hu hv h ?_
  obtain ⟨-, f, g, sf, sg, pf, pg, hn, hr⟩ := hs
  obtain ⟨-, f', g', sf', sg', pf', pg', hn', hr'⟩ := ht
  simp only at pf pg hn hr pf' pg' hn' hr'
  refine ⟨f * f' + g * g', f * g' + g * f', (sf.mul sf' hP.w).add (sg.mul sg' hP.w),
    (sf.mul sg' hP.w).add (sg.mul sf' hP.w), ?_, ?_, ?_, ?_⟩
  · rw [map_add, map_mul, map_mul, pf, pf', pg, pg']; rfl
  · rw [map_add, map_mul, map_mul, pf, pf', pg, pg']
    show _ = (p + q) * (p' + q') - (p * p' + q * q')
    have : (p + q) * (p' + q') = (p * p' + q * q') + (p * q' + q * p') := by ring
    rw [this, Nat.add_sub_cancel_left]
  · simp only [map_add, map_mul]
    show _ = nm * nm'
    rw [← hn, ← hn']; ring
  · show _ ≤ ((nm * r' + nm' * r + r * r' : ℕ) : ℝ)
    simp only [map_add, map_mul]
    have k1 := abs_psi_le f hu hv
    have k2 := abs_psi_le g hu hv
    have k1' := abs_psi_le f' hu hv
    have k2' := abs_psi_le g' hu hv
    have c1 : |psi u v f - psi u v g| ≤ nm := by
      rw [← hn]; push_cast; exact (abs_sub _ _).trans (add_le_add k1 k2)
    have c2 : |psi u v f' - psi u v g'| ≤ nm' := by
      rw [← hn']; push_cast; exact (abs_sub _ _).trans (add_le_add k1' k2')
    set A := psi u v f - psi u v g
    set B := psi u v f' - psi u v g'
    have e : 2 ^ P.S * 2 ^ P.S * (x * y) - (psi u v f * psi u v f' + psi u v g * psi u v g' -
        (psi u v f * psi u v g' + psi u v g * psi u v f'))
        = A * (2 ^ P.S * y - B) + B * (2 ^ P.S * x - A) + (2 ^ P.S * x - A) * (2 ^ P.S * y - B) := by
      simp only [A, B]; ring
    rw [e]
    push_cast
    refine (abs_add_le _ _).trans (add_le_add ((abs_add_le _ _).trans (add_le_add ?_ ?_)) ?_)
    · rw [abs_mul]; exact mul_le_mul c1 hr' (abs_nonneg _) (Nat.cast_nonneg _)
    · rw [abs_mul]; exact mul_le_mul c2 hr (abs_nonneg _) (Nat.cast_nonneg _)
    · rw [abs_mul]; exact mul_le_mul hr hr' (abs_nonneg _) (Nat.cast_nonneg _)

omit hu hv in
theorem enc_zero : Enc P u v ⟨0, 0, 0, 0⟩ 0 := by
  refine ⟨?_, 0, 0, Supp.zero _, Supp.zero _, by simp, by simp, by simp, by simp⟩
  rw [hP.H]; exact Nat.two_pow_pos _

omit hu hv in
theorem nth_sound {ts : List TM} {xs : List ℝ} (h : List.Forall₂ (Enc P u v) ts xs) (i : ℕ) :
    Enc P u v (nth ts i) (xs.getD i 0) := by
  induction h generalizing i with
  | nil => simpa [nth] using enc_zero hP
  | @cons t x ts xs h1 h2 ih =>
    cases i with
    | zero => simpa [nth] using h1
    | succ i => simpa [nth] using ih i

omit hP in
theorem pre_add {a c nt rt : ℕ} {x y : ℝ} {t : TM} (hP : P.Ok) (hx : Pre P u v a c nt rt x) (ht : Enc P u v t y)
    {n d k : ℕ} (hk : k = (n <<< P.S) / d) :
    Pre P u v (a + k * t.p) (c + k * t.q) (nt + k * t.nm) (rt + (k * t.r + (t.nm + t.r))) (x + n / d * y) := by
  obtain ⟨f, g, sf, sg, pf, pg, hn, hr⟩ := hx
  obtain ⟨-, f', g', sf', sg', pf', pg', hn', hr'⟩ := ht
  have hw : P.n ≤ P.w := by have := hP.w; have := hP.n2; omega
  refine ⟨f + (k : Q) * f', g + (k : Q) * g', sf.add ((sf'.mono hw).nsmul k), sg.add ((sg'.mono hw).nsmul k),
    ?_, ?_, ?_, ?_⟩
  · rw [map_add, map_mul, map_natCast, pf, pf']; rfl
  · rw [map_add, map_mul, map_natCast, pg, pg']; rfl
  · simp only [map_add, map_mul, map_natCast]
    rw [← hn, ← hn']; push_cast; ring
  · simp only [map_add, map_mul, map_natCast]
    have hκ : |2 ^ P.S * ((n : ℝ) / d) - k| ≤ 1 := by
      by_cases hd : d = 0
      · subst hd; simp [hk]
      · have hd' : 0 < d := Nat.pos_of_ne_zero hd
        have hdr : (0 : ℝ) < d := by exact_mod_cast hd'
        rw [Nat.shiftLeft_eq] at hk
        have l1 : k * d ≤ n * 2 ^ P.S := hk ▸ Nat.div_mul_le_self _ _
        have l2 : n * 2 ^ P.S < (k + 1) * d := by
          rw [hk, mul_comm (_ + 1)]; exact Nat.lt_mul_div_succ _ hd'
        have l1' : (k : ℝ) * d ≤ n * 2 ^ P.S := by exact_mod_cast l1
        have l2' : (n : ℝ) * 2 ^ P.S ≤ (k + 1) * d := by exact_mod_cast l2.le
        have e : 2 ^ P.S * ((n : ℝ) / d) = n * 2 ^ P.S / d := by ring
        rw [e, abs_le]
        constructor
        · have : (k : ℝ) ≤ n * 2 ^ P.S / d := (le_div_iff₀ hdr).2 l1'
          linarith
        · have : n * 2 ^ P.S / d ≤ (k : ℝ) + 1 := (div_le_iff₀ hdr).2 l2'
          linarith
    have k1' := abs_psi_le f' hu hv
    have k2' := abs_psi_le g' hu hv
    have c2 : |psi u v f' - psi u v g'| ≤ t.nm := by
      rw [← hn']; push_cast; exact (abs_sub _ _).trans (add_le_add k1' k2')
    set B := psi u v f' - psi u v g' with hB
    have hy : |2 ^ P.S * y| ≤ t.nm + t.r := by
      have : 2 ^ P.S * y = B + (2 ^ P.S * y - B) := by ring
      rw [this]; exact (abs_add_le _ _).trans (add_le_add c2 hr')
    have e : 2 ^ P.S * 2 ^ P.S * (x + n / d * y) - (psi u v f + k * psi u v f' - (psi u v g + k * psi u v g'))
        = (2 ^ P.S * 2 ^ P.S * x - (psi u v f - psi u v g)) +
          (k * (2 ^ P.S * y - B) + (2 ^ P.S * ((n : ℝ) / d) - k) * (2 ^ P.S * y)) := by
      rw [hB]; ring
    rw [e]
    push_cast
    refine (abs_add_le _ _).trans (add_le_add hr ((abs_add_le _ _).trans (add_le_add ?_ ?_)))
    · rw [abs_mul, Nat.abs_cast]; exact mul_le_mul_of_nonneg_left hr' (Nat.cast_nonneg _)
    · rw [abs_mul]
      calc _ ≤ 1 * ((t.nm : ℝ) + t.r) := mul_le_mul hκ hy (abs_nonneg _) zero_le_one
        _ = _ := one_mul _

omit hP hu hv in
theorem Enc.neg {t : TM} {y : ℝ} (h : Enc P u v t y) : Enc P u v ⟨t.q, t.p, t.r, t.nm⟩ (-y) := by
  obtain ⟨h0, f, g, sf, sg, pf, pg, hn, hr⟩ := h
  refine ⟨h0, g, f, sg, sf, pg, pf, by rw [add_comm]; exact hn, ?_⟩
  rw [← abs_neg]
  convert hr using 2
  ring

theorem linA_sound {ts : List TM} {ys : List ℝ} (hts : List.Forall₂ (Enc P u v) ts ys) {k : TM → Bool}
    {l : List (Nat × Co)} {a c nt rt : ℕ} {x : ℝ} (h : linA P ts k l a c nt rt = true)
    (hx : Pre P u v a c nt rt x) : ∃ t, Enc P u v t (x + linV ys l) ∧ k t = true := by
  induction l generalizing a c nt rt x with
  | nil => simpa [linV] using rnd_sound hP hu hv h hx
  | cons e l ih =>
    obtain ⟨i, ng, n, d⟩ := e
    have hi := nth_sound hP hts i
    have key : ∀ t : TM, nth ts i = t → ∃ t, Enc P u v t (x + linV ys ((i, ⟨ng, n, d⟩) :: l)) ∧ k t = true := by
      rintro ⟨p, q, r, nm⟩ ht
      rw [ht] at hi
      have h' : linStep P ng n d (linA P ts k l) a c nt rt ⟨p, q, r, nm⟩ = true := by rw [← ht]; exact h
      simp only [linStep, force_eq] at h'
      have hV : x + linV ys ((i, ⟨ng, n, d⟩) :: l)
          = (x + (bif ng then -1 else 1) * ((n : ℝ) / d) * ys.getD i 0) + linV ys l := by
        simp only [linV, List.map_cons, List.sum_cons, Co.val]; ring
      rw [hV]
      cases ng
      · refine ih (x := x + _) h' ?_
        have e : x + (bif false then -1 else 1) * ((n : ℝ) / d) * ys.getD i 0 = x + n / d * ys.getD i 0 := by simp
        rw [e]
        exact pre_add hu hv hP hx hi (n := n) (d := d) rfl
      · refine ih (x := x + _) h' ?_
        have e : x + (bif true then -1 else 1) * ((n : ℝ) / d) * ys.getD i 0 = x + n / d * -ys.getD i 0 := by simp
        rw [e]
        exact pre_add hu hv hP hx hi.neg (n := n) (d := d) rfl
    exact key _ rfl

omit hP hu hv in
theorem pre_zero : Pre P u v 0 0 0 0 0 := ⟨0, 0, Supp.zero _, Supp.zero _, by simp, by simp, by simp, by simp⟩

theorem lin_sound {ts : List TM} {ys : List ℝ} (hts : List.Forall₂ (Enc P u v) ts ys) {k : TM → Bool}
    {l : List (Nat × Co)} (h : lin P ts l k = true) : ∃ t, Enc P u v t (linV ys l) ∧ k t = true := by
  simpa using linA_sound hP hu hv hts h pre_zero

theorem pows_sound {k : List TM → Bool} {ch : List (Nat × Nat)} {l : List TM} {xs : List ℝ}
    (h : pows P ch k l = true) (hl : List.Forall₂ (Enc P u v) l xs) :
    ∃ l', List.Forall₂ (Enc P u v) l' (powsV ch xs) ∧ k l' = true := by
  induction ch generalizing l xs with
  | nil => exact ⟨l, hl, h⟩
  | cons e ch ih =>
    obtain ⟨i, j⟩ := e
    obtain ⟨t, ht, hk⟩ := mul_sound hP hu hv h (nth_sound hP hl i) (nth_sound hP hl j)
    exact ih hk (.cons ht hl)

omit hP hu hv in
theorem Enc.add {s t : TM} {x y : ℝ} (hs : Enc P u v s x) (ht : Enc P u v t y) (h : s.nm + t.nm < P.H) :
    Enc P u v ⟨s.p + t.p, s.q + t.q, s.r + t.r, s.nm + t.nm⟩ (x + y) := by
  obtain ⟨-, f, g, sf, sg, pf, pg, hn, hr⟩ := hs
  obtain ⟨-, f', g', sf', sg', pf', pg', hn', hr'⟩ := ht
  refine ⟨h, f + f', g + g', sf.add sf', sg.add sg', by rw [map_add, pf, pf'], by rw [map_add, pg, pg'], ?_, ?_⟩
  · simp only [map_add]; omega
  · simp only [map_add]
    push_cast
    refine le_trans (le_of_eq ?_) ((abs_add_le _ _).trans (add_le_add hr hr'))
    congr 1; ring

theorem poly_sound {xt yt : List TM} {xs ys : List ℝ} (hxs : List.Forall₂ (Enc P u v) xt xs)
    (hys : List.Forall₂ (Enc P u v) yt ys) {k : TM → Bool} {tb : List (Nat × List (Nat × Co))} {a c rt nt : ℕ} {x : ℝ}
    (h : poly P xt yt k tb a c rt nt = true)
    (hx : nt < P.H → Enc P u v ⟨a, c, rt, nt⟩ x) : ∃ t, Enc P u v t (x + polyV xs ys tb) ∧ k t = true := by
  induction tb generalizing a c rt nt x with
  | nil =>
    obtain ⟨h1, h2⟩ := gd_true h
    exact ⟨_, by simpa [polyV] using hx (by simpa using h1), h2⟩
  | cons e tb ih =>
    obtain ⟨i, row⟩ := e
    obtain ⟨t, ht, hk⟩ := lin_sound hP hu hv hys h
    obtain ⟨t', ht', hk'⟩ := mul_sound hP hu hv hk (nth_sound hP hxs i) ht
    obtain ⟨p, q, r, nm⟩ := t'
    simp only [accum, force_eq] at hk'
    have hk'' : poly P xt yt k tb _ _ _ _ = true := hk'
    have := ih (x := x + xs.getD i 0 * linV ys row) hk'' (fun hlt => by
      have hlt' : nt + nm < P.H := hlt
      exact (hx (by omega)).add ht' hlt')
    simpa [polyV, add_assoc] using this

omit hu hv in
theorem vl_lt (i j : ℕ) (hj : j < P.w) : dig P.b P.w P.vl i j < P.H := by
  by_cases hi : i < P.m
  · exact hP.vlH i hi j hj
  · have : P.vl / (2 ^ (P.b * P.w)) ^ i = 0 := by
      refine Nat.div_eq_of_lt (lt_of_lt_of_le hP.vl.1 ?_)
      exact Nat.pow_le_pow_right (by positivity) (by omega)
    simp only [dig, this, Nat.zero_mod, Nat.zero_div]
    rw [hP.H]; exact Nat.two_pow_pos _

omit hu hv in
theorem unpack_vl {N : ℕ} (hN : Nat.land N P.vl = N) :
    ∃ f : Q, Supp P.n f ∧ P.phi f = N ∧ ∀ i j, (f.coeff i).coeff j < P.H := by
  obtain ⟨f, h1, h2, h3⟩ := unpack hP.vl hN
  refine ⟨f, h1, h2, fun i j => ?_⟩
  by_cases hj : j < P.w
  · exact lt_of_le_of_lt (h3 i j hj) (vl_lt hP i j hj)
  · rw [h1 i j (by have := hP.w; have := hP.n2; omega), hP.H]; exact Nat.two_pow_pos _

omit hu hv in
theorem refresh_sound {t : TM} {k : TM → Bool} {x : ℝ} (h : refresh P t k = true) (ht : Enc P u v t x) :
    ∃ t', Enc P u v t' x ∧ k t' = true := by
  obtain ⟨p, q, r, nm⟩ := t
  simp only [refresh, force_eq] at h
  generalize hp' : Nat.land _ (Nat.mul _ _) = p' at h
  generalize Nat.sub p p' = z at h
  generalize Nat.sub q z = q' at h
  obtain ⟨h1, h⟩ := gd_true h
  obtain ⟨h2, h⟩ := gd_true h
  obtain ⟨h3, h⟩ := gd_true h
  obtain ⟨h4, h⟩ := gd_true h
  obtain ⟨h5, h⟩ := gd_true h
  have h1 : p' + z = p := Nat.eq_of_beq_eq_true h1
  have h2 : q' + z = q := Nat.eq_of_beq_eq_true h2
  obtain ⟨ζ, sz, pz, bz⟩ := unpack_vl hP (Nat.eq_of_beq_eq_true h3)
  obtain ⟨f', sf', pf', bf'⟩ := unpack_vl hP (Nat.eq_of_beq_eq_true h4)
  obtain ⟨g', sg', pg', bg'⟩ := unpack_vl hP (Nat.eq_of_beq_eq_true h5)
  obtain ⟨hH, f, g, sf, sg, pf, pg, hn, hr⟩ := ht
  simp only at hH pf pg hn hr
  have hw : P.n ≤ P.w := by have := hP.w; have := hP.n2; omega
  have H2 := hP.H2
  have ef : f = f' + ζ := by
    refine phi_inj (b := P.b) (sf.mono hw) ((sf'.add sz).mono hw) (fun i j => ?_) (fun i j => ?_) ?_
    · have := coeff_le_nu f i j; omega
    · rw [Polynomial.coeff_add, Polynomial.coeff_add]; have := bf' i j; have := bz i j; omega
    · show P.phi f = P.phi (f' + ζ)
      rw [map_add, pf, pf', pz, h1]
  have eg : g = g' + ζ := by
    refine phi_inj (b := P.b) (sg.mono hw) ((sg'.add sz).mono hw) (fun i j => ?_) (fun i j => ?_) ?_
    · have := coeff_le_nu g i j; omega
    · rw [Polynomial.coeff_add, Polynomial.coeff_add]; have := bg' i j; have := bz i j; omega
    · show P.phi g = P.phi (g' + ζ)
      rw [map_add, pg, pg', pz, h2]
  have nf : nu f = nu f' + nu ζ := by rw [ef, map_add]
  have ng : nu g = nu g' + nu ζ := by rw [eg, map_add]
  have hlt : nu f' + nu g' < P.H := by omega
  have e := nm_eq hP pf' pg' hlt
  refine ⟨_, ⟨?_, f', g', sf', sg', pf', pg', e.symm, ?_⟩, h⟩
  · show (_ + _) % P.B1 < _
    rw [e]; exact hlt
  · have : psi u v f - psi u v g = psi u v f' - psi u v g' := by rw [ef, eg, map_add, map_add]; ring
    rw [← this]; exact hr

omit hu hv in
theorem enc_const {c : ℕ} (hc : c < P.H) : Enc P u v ⟨c, 0, 0, c⟩ (c / 2 ^ P.S) := by
  refine ⟨hc, (c : Q), 0, ?_, Supp.zero _, by simp, by simp, by simp, ?_⟩
  · intro i j hj
    have := hP.n2
    rw [← Polynomial.C_eq_natCast, Polynomial.coeff_C]
    split
    · rw [← Polynomial.C_eq_natCast, Polynomial.coeff_C, if_neg (by omega)]
    · simp
  · simp only [map_natCast, map_zero, sub_zero, Nat.cast_zero]
    rw [mul_div_cancel₀ _ (by positivity), sub_self, abs_zero]

omit hu hv in
theorem enc_one : Enc P u v (tone P) 1 := by
  have := enc_const hP (u := u) (v := v) hP.oneH
  rw [hP.one] at this
  simp only [tone, hP.one]
  convert this using 1
  push_cast
  exact (div_self (by positivity)).symm

omit hu hv in
theorem enc_V : Enc P u v (tV P) v := by
  refine ⟨hP.oneH, ((2 ^ P.S : ℕ) : Q) * Polynomial.C Polynomial.X, 0, ?_, Supp.zero _, ?_, by simp [tV], ?_, ?_⟩
  · intro i j hj
    have := hP.n2
    rw [← Polynomial.C_eq_natCast, Polynomial.coeff_C_mul, Polynomial.coeff_C, ← Polynomial.C_eq_natCast,
      Polynomial.coeff_C_mul]
    split
    · rw [Polynomial.coeff_X, if_neg (by omega), mul_zero]
    · simp
  · rw [map_mul, map_natCast]
    simp [Par.phi, phi, tV, hP.tV]
  · rw [map_mul, map_natCast]
    simp [nu, phi, tV, hP.one]
  · rw [map_mul, map_natCast]
    simp [psi, tV]

omit hu hv in
theorem enc_U : Enc P u v (tU P) u := by
  refine ⟨hP.oneH, ((2 ^ P.S : ℕ) : Q) * Polynomial.X, 0, ?_, Supp.zero _, ?_, by simp [tU], ?_, ?_⟩
  · intro i j hj
    have := hP.n2
    rw [← Polynomial.C_eq_natCast, Polynomial.coeff_C_mul, Polynomial.coeff_X, ← Polynomial.C_eq_natCast,
      Polynomial.coeff_C_mul]
    split
    · rw [Polynomial.coeff_one, if_neg (by omega), mul_zero]
    · simp
  · rw [map_mul, map_natCast]
    simp [Par.phi, phi, tU, hP.tU]
  · rw [map_mul, map_natCast]
    simp [nu, phi, tU, hP.one]
  · rw [map_mul, map_natCast]
    simp [psi, tU]

omit hP in
theorem enc_abs {t : TM} {x : ℝ} (h : Enc P u v t x) : 2 ^ P.S * |x| ≤ ((t.nm + t.r : ℕ) : ℝ) := by
  obtain ⟨-, f, g, sf, sg, pf, pg, hn, hr⟩ := h
  have k1 := abs_psi_le f hu hv
  have k2 := abs_psi_le g hu hv
  have c1 : |psi u v f - psi u v g| ≤ t.nm := by
    rw [← hn]; push_cast; exact (abs_sub _ _).trans (add_le_add k1 k2)
  have hS : (0 : ℝ) < 2 ^ P.S := by positivity
  have eS : 2 ^ P.S * |x| = |2 ^ P.S * x| := by rw [abs_mul, abs_of_pos hS]
  rw [eS]
  have : 2 ^ P.S * x = (psi u v f - psi u v g) + (2 ^ P.S * x - (psi u v f - psi u v g)) := by ring
  rw [this]; push_cast
  exact (abs_add_le _ _).trans (add_le_add c1 hr)

theorem bnd_sound {t : TM} {x : ℝ} {tol : ℕ} (h : bnd P t tol = true) (ht : Enc P u v t x) :
    2 ^ P.S * |x| ≤ tol := by
  obtain ⟨⟨p, q, r, nm⟩, ht', hk⟩ := refresh_sound hP h ht
  have hk : nm + r ≤ tol := Nat.le_of_ble_eq_true hk
  refine (enc_abs hu hv ht').trans ?_
  exact_mod_cast hk

omit hu hv in
/-- the constant term of a packed polynomial -/
theorem const_term {f : Q} (hf : nu f < P.H) : P.phi f % 2 ^ P.b = (f.coeff 0).coeff 0 := by
  have hlt := hP.H_lt
  have h1 : P.phi f = (f.coeff 0).eval (2 ^ P.b) + 2 ^ (P.b * P.w) * phi (2 ^ P.b) (2 ^ (P.b * P.w)) f.divX := by
    conv_lhs => rw [← Polynomial.divX_mul_X_add f]
    rw [Par.phi, map_add, map_mul]
    simp [phi]; ring
  have h2 : (f.coeff 0).eval (2 ^ P.b) = (f.coeff 0).coeff 0 + 2 ^ P.b * (f.coeff 0).divX.eval (2 ^ P.b) := by
    conv_lhs => rw [← Polynomial.divX_mul_X_add (f.coeff 0)]
    simp; ring
  have hw : P.w ≠ 0 := by have := hP.w; have := hP.n2; omega
  obtain ⟨w, hw⟩ := Nat.exists_eq_succ_of_ne_zero hw
  have h3 : 2 ^ (P.b * P.w) = 2 ^ P.b * 2 ^ (P.b * w) := by rw [hw, Nat.mul_succ, pow_add]; ring
  rw [h1, h2, h3, mul_assoc, add_assoc, ← mul_add, Nat.add_mul_mod_self_left]
  exact Nat.mod_eq_of_lt (lt_of_le_of_lt (coeff_le_nu f 0 0) (by omega))

omit hP in
/-- a polynomial differs from its constant term by at most the other coefficients -/
theorem psi_ge (f : Q) : (2 * (f.coeff 0).coeff 0 : ℝ) - nu f ≤ psi u v f := by
  set c := (f.coeff 0).coeff 0 with hc
  obtain ⟨g, hg⟩ : ∃ g : Q, f = g + (c : Q) := by
    refine ⟨f.divX * Polynomial.X + Polynomial.C ((f.coeff 0).divX * Polynomial.X), ?_⟩
    conv_lhs => rw [← Polynomial.divX_mul_X_add f, ← Polynomial.divX_mul_X_add (f.coeff 0)]
    rw [map_add, add_assoc, ← hc, ← Polynomial.C_eq_natCast, ← Polynomial.C_eq_natCast]; rfl
  have h1 : nu f = nu g + c := by rw [hg, map_add, map_natCast]; rfl
  have h2 : psi u v f = psi u v g + c := by rw [hg, map_add, map_natCast]
  have h3 := abs_le.1 (abs_psi_le g hu hv)
  rw [h1, h2]; push_cast; linarith [h3.1]

theorem enc_lower {t : TM} {x : ℝ} (h : Enc P u v t x) :
    ((2 * (t.p % (P.B1 + 1)) : ℕ) : ℝ) - ((t.nm + t.r : ℕ) : ℝ) ≤ 2 ^ P.S * x := by
  obtain ⟨hH, f, g, sf, sg, pf, pg, hn, hr⟩ := h
  have hB : P.B1 + 1 = 2 ^ P.b := by
    rw [hP.B1]; exact Nat.sub_add_cancel Nat.one_le_two_pow
  have h0 := const_term hP (f := f) (by omega)
  have h1 := psi_ge hu hv f
  have h2 := abs_le.1 (abs_psi_le g hu hv)
  have h3 := abs_le.1 hr
  rw [hB, ← pf, h0, ← hn]
  push_cast
  linarith [h3.1, h2.2]

theorem pos_sound {t : TM} {x : ℝ} (h : pos P t = true) (ht : Enc P u v t x) : 0 < x := by
  obtain ⟨⟨p, q, r, nm⟩, ht', hk⟩ := refresh_sound hP h ht
  have hk : nm + r < 2 * (p % (P.B1 + 1)) := Nat.le_of_ble_eq_true hk
  have h1 := enc_lower hP hu hv ht'
  have h2 : ((nm + r : ℕ) : ℝ) < ((2 * (p % (P.B1 + 1)) : ℕ) : ℝ) := by exact_mod_cast hk
  have hS : (0 : ℝ) < 2 ^ P.S := by positivity
  have h3 : 0 < 2 ^ P.S * x := by simp only at h1; linarith
  exact (mul_pos_iff_of_pos_left hS).1 h3

theorem newton_sound {y : TM} {k : TM → Bool} {a : ℝ} (hy : Enc P u v y a) {N : ℕ} {q : TM} {ρ : ℝ}
    (h : newton P y k N q = true) (hq : Enc P u v q ρ) : ∃ q' ρ', Enc P u v q' ρ' ∧ k q' = true := by
  induction N generalizing q ρ with
  | zero => exact ⟨q, ρ, hq, h⟩
  | succ N ih =>
    obtain ⟨e, he, h⟩ := mul_sound hP hu hv h hy hq
    obtain ⟨d, hd, h⟩ := lin_sound hP hu hv (.cons he (.cons (enc_one hP) .nil)) h
    obtain ⟨d, hd, h⟩ := refresh_sound hP h hd
    obtain ⟨q', hq', h⟩ := mul_sound hP hu hv h hq hd
    exact ih h hq'

theorem inv_sound {N : ℕ} {y : TM} {k : TM → Bool} {a : ℝ} (h : inv P N y k = true) (hy : Enc P u v y a) :
    0 < a ∧ ∃ t, Enc P u v t a⁻¹ ∧ k t = true := by
  obtain ⟨⟨p, q, r, nm⟩, hy, h⟩ := refresh_sound hP h hy
  simp only [force_eq] at h
  obtain ⟨h1, h⟩ := gd_true h
  obtain ⟨h2, h⟩ := gd_true h
  have low := enc_lower hP hu hv hy
  obtain ⟨t, ρ, ht, h⟩ := newton_sound hP hu hv hy h
    (enc_const hP (c := Nat.div (Nat.mul P.one P.one) (Nat.mod p (Nat.add P.B1 1))) (by simpa using h2))
  obtain ⟨e, he, h⟩ := mul_sound hP hu hv h hy ht
  obtain ⟨d, hd, h⟩ := lin_sound hP hu hv (.cons he (.cons (enc_one hP) .nil)) h
  obtain ⟨⟨pd, qd, rd, nd⟩, hd, h⟩ := refresh_sound hP h hd
  obtain ⟨pt, qt, rt, nt⟩ := t
  simp only at h
  set lo : ℕ := Nat.sub (Nat.mul 2 (Nat.mod p (Nat.add P.B1 1))) (Nat.add nm r) with hlo
  have hlo1 : 0 < lo := by simpa using h1
  have hlo2 : (lo : ℝ) ≤ 2 ^ P.S * a := by
    refine le_trans ?_ low
    have : lo + (nm + r) = 2 * (p % (P.B1 + 1)) := by
      have : lo = 2 * (p % (P.B1 + 1)) - (nm + r) := hlo
      omega
    have : (lo : ℝ) + ((nm + r : ℕ) : ℝ) = ((2 * (p % (P.B1 + 1)) : ℕ) : ℝ) := by exact_mod_cast this
    simp only
    linarith
  have hlo1r : (0 : ℝ) < lo := by exact_mod_cast hlo1
  have hS : (0 : ℝ) < 2 ^ P.S := by positivity
  have ha : 0 < a := (mul_pos_iff_of_pos_left hS).1 (lt_of_lt_of_le hlo1r hlo2)
  refine ⟨ha, _, ?_, h⟩
  have hdv : linV [a * ρ, 1] [(0, ⟨false, 1, 1⟩), (1, ⟨true, 1, 1⟩)] = a * ρ - 1 := by
    simp [linV, Co.val]; ring
  rw [hdv] at hd
  have habs := enc_abs hu hv hd
  simp only at habs
  obtain ⟨hH, f, g, sf, sg, pf, pg, hn, hr⟩ := ht
  refine ⟨hH, f, g, sf, sg, pf, pg, hn, ?_⟩
  set s : ℕ := nd + rd with hs
  show _ ≤ ((rt + ((s <<< P.S) / lo + 1) : ℕ) : ℝ)
  have e1 : 2 ^ P.S * a⁻¹ - (psi u v f - psi u v g)
      = (2 ^ P.S * ρ - (psi u v f - psi u v g)) + 2 ^ P.S * (a⁻¹ - ρ) := by ring
  have e2 : |2 ^ P.S * (a⁻¹ - ρ)| ≤ ((s <<< P.S) / lo + 1 : ℕ) := by
    have : 2 ^ P.S * (a⁻¹ - ρ) = -(2 ^ P.S * (a * ρ - 1)) / a := by field_simp; ring
    rw [this, abs_div, abs_neg, abs_mul, abs_of_pos hS, abs_of_pos ha, div_le_iff₀ ha]
    refine habs.trans ?_
    have d1 : s * 2 ^ P.S ≤ ((s <<< P.S) / lo + 1) * lo := by
      rw [Nat.shiftLeft_eq, mul_comm (_ + 1)]; exact (Nat.lt_mul_div_succ _ hlo1).le
    have d2 : (s : ℝ) * 2 ^ P.S ≤ (((s <<< P.S) / lo + 1 : ℕ) : ℝ) * lo := by exact_mod_cast d1
    have d3 : (((s <<< P.S) / lo + 1 : ℕ) : ℝ) * lo ≤ (((s <<< P.S) / lo + 1 : ℕ) : ℝ) * (2 ^ P.S * a) :=
      mul_le_mul_of_nonneg_left hlo2 (Nat.cast_nonneg _)
    have d4 := d2.trans d3
    refine le_of_mul_le_mul_right (a := 2 ^ P.S) ?_ hS
    calc _ ≤ _ := d4
      _ = _ := by ring
  rw [e1, Nat.cast_add]
  exact (abs_add_le _ _).trans (add_le_add hr e2)

end
end If97.Tm

/-!
# Powers, tables and subdivision for the Taylor models

Helper for C50 and later; nothing here refers to the model.
-/

namespace If97.Tm

/-! ### powers along an addition chain -/

/-- the exponents of an addition chain -/
def powE : List (Nat × Nat) → List Int → List Int
  | [], es => es
  | (i, j) :: ch, es => powE ch ((es.getD i 0 + es.getD j 0) :: es)

/-- do the steps refer to entries that are there? -/
def chOk : List (Nat × Nat) → Nat → Bool
  | [], _ => true
  | (i, j) :: ch, n => Nat.blt i n && Nat.blt j n && chOk ch (n + 1)

theorem getD_map (f : Int → ℝ) (l : List Int) {i : Nat} (h : i < l.length) :
    (l.map f).getD i 0 = f (l.getD i 0) := by
  simp [List.getD_eq_getElem?_getD, h]

theorem getD_mem {l : List Int} {i : Nat} (h : i < l.length) : l.getD i 0 ∈ l := by
  simp [List.getD_eq_getElem?_getD, h]

theorem powsV_eq {ch : List (Nat × Nat)} {es : List Int} {y : ℝ} (hy : y ≠ 0 ∨ ∀ e ∈ es, 0 ≤ e)
    (hc : chOk ch es.length = true) : powsV ch (es.map (y ^ ·)) = (powE ch es).map (y ^ ·) := by
  induction ch generalizing es with
  | nil => rfl
  | cons s ch ih =>
    obtain ⟨i, j⟩ := s
    simp only [chOk, Bool.and_eq_true, Nat.blt_eq] at hc
    obtain ⟨⟨hi, hj⟩, hc⟩ := hc
    rw [powsV, powE, getD_map (y ^ ·) _ hi, getD_map (y ^ ·) _ hj]
    have e : y ^ (es.getD i 0) * y ^ (es.getD j 0) = y ^ (es.getD i 0 + es.getD j 0) := by
      refine (zpow_add' ?_).symm
      rcases hy with hy | hy
      · exact .inl hy
      · have h1 := hy _ (getD_mem hi)
        have h2 := hy _ (getD_mem hj)
        omega
    show powsV ch ((y ^ (es.getD i 0) * y ^ (es.getD j 0)) :: es.map (y ^ ·)) = _
    rw [e]
    refine ih (es := (es.getD i 0 + es.getD j 0) :: es) ?_ (by simpa using hc)
    rcases hy with hy | hy
    · exact .inl hy
    · refine .inr fun e he => ?_
      rcases List.mem_cons.1 he with rfl | he
      · exact add_nonneg (hy _ (getD_mem hi)) (hy _ (getD_mem hj))
      · exact hy e he

/-! ### tables -/

/-- the terms (I, J, c) of a grouped table -/
def flat (xe ye : List Int) (tb : List (Nat × List (Nat × Co))) : List (Int × Int × Co) :=
  tb.flatMap fun e => e.2.map fun f => (xe.getD e.1 0, ye.getD f.1 0, f.2)

def rowOk (row : List (Nat × Co)) (ny : Nat) : Bool := row.all fun f => Nat.blt f.1 ny
def tbOk (tb : List (Nat × List (Nat × Co))) (nx ny : Nat) : Bool :=
  tb.all fun e => Nat.blt e.1 nx && rowOk e.2 ny

/-- Σ c xᴵ yᴶ -/
noncomputable def sumT (x y : ℝ) (l : List (Int × Int × Co)) : ℝ :=
  (l.map fun e => e.2.2.val * x ^ e.1 * y ^ e.2.1).sum

theorem linV_eq {y : ℝ} {ye : List Int} {row : List (Nat × Co)} (h : rowOk row ye.length = true) (x : ℝ) (I : Int) :
    x ^ I * linV (ye.map (y ^ ·)) row = sumT x y (row.map fun f => (I, ye.getD f.1 0, f.2)) := by
  induction row with
  | nil => simp [linV, sumT]
  | cons f row ih =>
    simp only [rowOk, List.all_cons, Bool.and_eq_true, Nat.blt_eq] at h
    have := ih (by simpa [rowOk] using h.2)
    simp only [linV, List.map_cons, List.sum_cons, sumT] at this ⊢
    rw [mul_add, this, getD_map (y ^ ·) _ h.1]
    ring

theorem polyV_eq {x y : ℝ} {xe ye : List Int} {tb : List (Nat × List (Nat × Co))}
    (h : tbOk tb xe.length ye.length = true) :
    polyV (xe.map (x ^ ·)) (ye.map (y ^ ·)) tb = sumT x y (flat xe ye tb) := by
  induction tb with
  | nil => simp [polyV, sumT, flat]
  | cons e tb ih =>
    simp only [tbOk, List.all_cons, Bool.and_eq_true, Nat.blt_eq] at h
    have := ih (by simpa [tbOk] using h.2)
    have e1 : sumT x y (flat xe ye (e :: tb))
        = sumT x y (e.2.map fun f => (xe.getD e.1 0, ye.getD f.1 0, f.2)) + sumT x y (flat xe ye tb) := by
      simp [sumT, flat]
    rw [e1, ← this, ← linV_eq h.1.2]
    simp only [polyV, List.map_cons, List.sum_cons]
    rw [getD_map (x ^ ·) _ h.1.1]

/-- the table of a polynomial of the code and that of the checker -/
def SameT (a : Int × Int × Co) (e : Int × Int × ℝ) : Prop := a.1 = e.1 ∧ a.2.1 = e.2.1 ∧ a.2.2.val = e.2.2

theorem sumT_eq {l : List (Int × Int × Co)} {T : List (Int × Int × ℝ)} (h : List.Forall₂ SameT l T) (x y : ℝ) :
    sumT x y l = (T.map fun e => e.2.2 * x ^ e.1 * y ^ e.2.1).sum := by
  induction h with
  | nil => simp [sumT]
  | cons h1 _ ih =>
    simp only [sumT, List.map_cons, List.sum_cons] at ih ⊢
    rw [ih, h1.1, h1.2.1, h1.2.2]

/-- the same for the derivative in the second variable -/
def SameJ (a : Int × Int × Co) (e : Int × Int × ℝ) : Prop :=
  a.1 = e.1 ∧ a.2.1 = e.2.1 - 1 ∧ a.2.2.val = e.2.2 * e.2.1

theorem sumT_eqJ {l : List (Int × Int × Co)} {T : List (Int × Int × ℝ)} (h : List.Forall₂ SameJ l T) (x y : ℝ) :
    sumT x y l = (T.map fun e => e.2.2 * x ^ e.1 * (e.2.1 : ℝ) * y ^ (e.2.1 - 1)).sum := by
  induction h with
  | nil => simp [sumT]
  | cons h1 _ ih =>
    simp only [sumT, List.map_cons, List.sum_cons] at ih ⊢
    rw [ih, h1.1, h1.2.1, h1.2.2]; ring

/-! ### subdivision -/

/-- what a leaf has to establish -/
def LeafOk (leaf : Nat → Nat → Nat → Nat → Bool) (xr yr : Nat) (R : ℝ → ℝ → Prop) : Prop :=
  ∀ xc D yc E : ℕ, 0 < D → 0 < E → xr ≤ xc → yr ≤ yc → leaf xc D yc E = true → ∀ u v : ℝ, |u| ≤ 1 → |v| ≤ 1 →
    R (xc / D + xr / D * u) (yc / E + yr / E * v)

theorem coord {xc xr D : ℕ} (hD : 0 < D) {X : ℝ} (h : |X * D - xc| ≤ xr) :
    ∃ u : ℝ, |u| ≤ 1 ∧ X = xc / D + xr / D * u := by
  have hD' : (0 : ℝ) < D := by exact_mod_cast hD
  by_cases hr : xr = 0
  · subst hr
    refine ⟨0, by simp, ?_⟩
    have : X * D - xc = 0 := by simpa using h
    field_simp; linarith
  · have hr' : (0 : ℝ) < xr := by exact_mod_cast Nat.pos_of_ne_zero hr
    refine ⟨(X * D - xc) / xr, ?_, ?_⟩
    · rw [abs_div, abs_of_pos hr', div_le_one hr']; exact h
    · field_simp; ring

theorem verify_sound {leaf : Nat → Nat → Nat → Nat → Bool} {xr yr : Nat} {R : ℝ → ℝ → Prop}
    (hl : LeafOk leaf xr yr R) {t : Tr} {xc D yc E : ℕ} (hD : 0 < D) (hE : 0 < E) (hx : xr ≤ xc) (hy : yr ≤ yc)
    (h : verify leaf xr yr t xc D yc E = true) {X Y : ℝ} (hX : |X * D - xc| ≤ xr) (hY : |Y * E - yc| ≤ yr) : R X Y := by
  induction t generalizing xc D yc E with
  | l =>
    obtain ⟨u, hu, rfl⟩ := coord hD hX
    obtain ⟨v, hv, rfl⟩ := coord hE hY
    exact hl xc D yc E hD hE hx hy h u v hu hv
  | x s t ih1 ih2 =>
    have h' : gd (verify leaf xr yr s (2 * xc - xr) (2 * D) yc E) (verify leaf xr yr t (2 * xc + xr) (2 * D) yc E) = true := by
      have h0 : stepX xr (verify leaf xr yr s) (verify leaf xr yr t) xc D yc E = true := h
      simp only [stepX, force_eq] at h0
      exact h0
    obtain ⟨h1, h2⟩ := gd_true h'
    have hsub : ((2 * xc - xr : ℕ) : ℝ) = 2 * xc - xr := by
      rw [Nat.cast_sub (by omega)]; push_cast; ring
    rw [abs_le] at hX
    rcases le_total (X * D) xc with hc | hc
    · refine ih1 (by omega) hE (by omega) hy h1 ?_ hY
      rw [abs_le, hsub]; push_cast
      constructor <;> nlinarith [hX.1, hX.2]
    · refine ih2 (by omega) hE (by omega) hy h2 ?_ hY
      rw [abs_le]; push_cast
      constructor <;> nlinarith [hX.1, hX.2]
  | y s t ih1 ih2 =>
    have h' : gd (verify leaf xr yr s xc D (2 * yc - yr) (2 * E)) (verify leaf xr yr t xc D (2 * yc + yr) (2 * E)) = true := by
      have h0 : stepY yr (verify leaf xr yr s) (verify leaf xr yr t) xc D yc E = true := h
      simp only [stepY, force_eq] at h0
      exact h0
    obtain ⟨h1, h2⟩ := gd_true h'
    have hsub : ((2 * yc - yr : ℕ) : ℝ) = 2 * yc - yr := by
      rw [Nat.cast_sub (by omega)]; push_cast; ring
    rw [abs_le] at hY
    rcases le_total (Y * E) yc with hc | hc
    · refine ih1 hD (by omega) hx (by omega) h1 hX ?_
      rw [abs_le, hsub]; push_cast
      constructor <;> nlinarith [hY.1, hY.2]
    · refine ih2 hD (by omega) hx (by omega) h2 hX ?_
      rw [abs_le]; push_cast
      constructor <;> nlinarith [hY.1, hY.2]

theorem base_sound {P : Par} (hP : P.Ok) {u v : ℝ} (hu : |u| ≤ 1) (hv : |v| ≤ 1) {xr yr xc D yc E : ℕ}
    {k : TM → TM → Bool} (h : base P xr yr xc D yc E k = true) :
    ∃ x y, Enc P u v x (xc / D + xr / D * u) ∧ Enc P u v y (yc / E + yr / E * v) ∧ k x y = true := by
  obtain ⟨x, hx, h⟩ := lin_sound hP hu hv (.cons (enc_one hP) (.cons (enc_U hP) .nil)) h
  obtain ⟨y, hy, h⟩ := lin_sound hP hu hv (.cons (enc_one hP) (.cons (enc_V hP) .nil)) h
  refine ⟨x, y, ?_, ?_, h⟩
  · convert hx using 1
    simp [linV, Co.val]
  · convert hy using 1
    simp [linV, Co.val]

end If97.Tm

/-! Parameters of the Taylor models (masks generated, checked by evaluation). -/

namespace If97.Tm
set_option maxRecDepth 100000

theorem P12_ok : P12.Ok where
  b2 := by decide
  n2 := by decide
  w := by decide
  B1 := by decide +kernel
  H := by decide +kernel
  mask := by decide +kernel
  vl := by decide +kernel
  vlH := by decide +kernel
  one := by decide +kernel
  tU := by decide +kernel
  tV := by decide +kernel
  oneH := by decide +kernel

end If97.Tm
