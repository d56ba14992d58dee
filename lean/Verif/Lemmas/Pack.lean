import Mathlib.Algebra.Polynomial.Eval.Degree
import Mathlib.Algebra.Polynomial.AlgebraMap
import Mathlib.Algebra.Order.BigOperators.Group.Finset
import Mathlib.Data.Real.Basic
import Mathlib.Data.Int.ModEq
import Mathlib.Tactic.Ring
import Mathlib.Tactic.Linarith
import Mathlib.Tactic.Positivity

/-!
# Packing bivariate polynomials into natural numbers

Helper for the Taylor models of `Lemmas/Taylor.lean`; nothing here refers to the model.  A polynomial
with natural coefficients in two variables is stored as its value at (2^b, 2^(b w)), so that one
multiplication of naturals multiplies polynomials and one bitwise `and` truncates and rounds them.
-/

namespace If97.Tm

open Polynomial Finset

/-! ### digits of a sum -/

theorem and_step (c x y M : ℕ) (hx : x < 2 ^ c) :
    (x + 2 ^ c * y) &&& M = (x &&& (M % 2 ^ c)) + 2 ^ c * (y &&& (M / 2 ^ c)) := by
  apply Nat.eq_of_testBit_eq
  intro j
  have hM : M % 2 ^ c < 2 ^ c := Nat.mod_lt _ (by positivity)
  have e : M = 2 ^ c * (M / 2 ^ c) + M % 2 ^ c := (Nat.div_add_mod _ _).symm
  have hxm : x &&& (M % 2 ^ c) < 2 ^ c := Nat.and_lt_two_pow _ hM
  rw [Nat.testBit_and, Nat.add_comm x, Nat.testBit_two_pow_mul_add _ hx, Nat.add_comm (x &&& _),
    Nat.testBit_two_pow_mul_add _ hxm]
  conv_lhs => rw [e, Nat.testBit_two_pow_mul_add _ hM]
  split <;> simp [Nat.testBit_and]

theorem and_sum (c K : ℕ) (g : ℕ → ℕ) (M : ℕ) (hg : ∀ i, g i < 2 ^ c) :
    (∑ i ∈ range K, g i * (2 ^ c) ^ i) &&& M
      = ∑ i ∈ range K, (g i &&& (M / (2 ^ c) ^ i % 2 ^ c)) * (2 ^ c) ^ i := by
  induction K generalizing g M with
  | zero => simp
  | succ K ih =>
    rw [sum_range_succ', sum_range_succ']
    have e1 : ∑ i ∈ range K, g (i + 1) * (2 ^ c) ^ (i + 1) = 2 ^ c * ∑ i ∈ range K, g (i + 1) * (2 ^ c) ^ i := by
      rw [mul_sum]; exact sum_congr rfl fun i _ => by ring
    have e2 : ∑ i ∈ range K, (g (i + 1) &&& (M / (2 ^ c) ^ (i + 1) % 2 ^ c)) * (2 ^ c) ^ (i + 1)
        = 2 ^ c * ∑ i ∈ range K, (g (i + 1) &&& (M / 2 ^ c / (2 ^ c) ^ i % 2 ^ c)) * (2 ^ c) ^ i := by
      rw [mul_sum]
      refine sum_congr rfl fun i _ => ?_
      rw [Nat.div_div_eq_div_mul, pow_succ' (2 ^ c) i]; ring
    rw [e1, e2, ← ih (fun i => g (i + 1)) (M / 2 ^ c) (fun i => hg _)]
    have := and_step c (g 0) (∑ i ∈ range K, g (i + 1) * (2 ^ c) ^ i) M (hg 0)
    simpa [add_comm] using this

theorem sum_lt (C K : ℕ) (g : ℕ → ℕ) (hg : ∀ i, g i < C) : ∑ i ∈ range K, g i * C ^ i < C ^ K := by
  induction K with
  | zero => simp
  | succ K ih =>
    rw [sum_range_succ, pow_succ]
    have : (g K + 1) * C ^ K ≤ C ^ K * C := by rw [mul_comm]; exact Nat.mul_le_mul_left _ (hg K)
    calc _ < C ^ K + g K * C ^ K := by omega
      _ = (g K + 1) * C ^ K := by ring
      _ ≤ _ := this

theorem sum_inj (C K : ℕ) (g h : ℕ → ℕ) (hg : ∀ i, g i < C) (hh : ∀ i, h i < C)
    (e : ∑ i ∈ range K, g i * C ^ i = ∑ i ∈ range K, h i * C ^ i) : ∀ i < K, g i = h i := by
  induction K generalizing g h with
  | zero => intro i hi; omega
  | succ K ih =>
    rw [sum_range_succ', sum_range_succ'] at e
    have k (g : ℕ → ℕ) : ∑ i ∈ range K, g (i + 1) * C ^ (i + 1) = C * ∑ i ∈ range K, g (i + 1) * C ^ i := by
      rw [mul_sum]; exact sum_congr rfl fun i _ => by ring
    rw [k g, k h, pow_zero, mul_one, mul_one] at e
    have h0 : g 0 = h 0 := by
      have := congrArg (· % C) e
      simpa [Nat.mul_add_mod, Nat.mod_eq_of_lt (hg 0), Nat.mod_eq_of_lt (hh 0)] using this
    have hC : 0 < C := lt_of_le_of_lt (Nat.zero_le _) (hg 0)
    rw [h0] at e
    have e' := Nat.eq_of_mul_eq_mul_left hC (Nat.add_right_cancel e)
    intro i hi
    cases i with
    | zero => exact h0
    | succ i => exact ih (fun i => g (i + 1)) (fun i => h (i + 1)) (fun i => hg _) (fun i => hh _) e' i (by omega)

theorem digits_sum (C K N : ℕ) (hC : 0 < C) (h : N < C ^ K) : ∑ i ∈ range K, (N / C ^ i % C) * C ^ i = N := by
  induction K generalizing N with
  | zero => simp at h; simp [h]
  | succ K ih =>
    rw [sum_range_succ']
    have e : ∑ i ∈ range K, (N / C ^ (i + 1) % C) * C ^ (i + 1) = C * ∑ i ∈ range K, (N / C / C ^ i % C) * C ^ i := by
      rw [mul_sum]
      refine sum_congr rfl fun i _ => ?_
      rw [Nat.div_div_eq_div_mul, pow_succ' C i]; ring
    rw [e, ih (N / C) (by rw [Nat.div_lt_iff_lt_mul hC, ← pow_succ]; exact h)]
    simpa using Nat.div_add_mod N C

/-! ### the three evaluations of a polynomial -/

/-- natural coefficients; the outer variable is u, the inner one v -/
abbrev Q := ℕ[X][X]

/-- value at v = A, u = C -/
noncomputable def phi (A C : ℕ) : Q →+* ℕ := eval₂RingHom (evalRingHom A) C
/-- sum of the coefficients -/
noncomputable def nu : Q →+* ℕ := phi 1 1
/-- value at real v and u -/
noncomputable def psi (u v : ℝ) : Q →+* ℝ := eval₂RingHom (eval₂RingHom (Nat.castRingHom ℝ) v) u

theorem phi_eq (A C : ℕ) (f : Q) {K : ℕ} (hK : f.natDegree < K) :
    phi A C f = ∑ i ∈ range K, (f.coeff i).eval A * C ^ i := by
  simp only [phi, coe_eval₂RingHom]
  exact eval₂_eq_sum_range' _ hK _

theorem psi_eq (u v : ℝ) (f : Q) {K : ℕ} (hK : f.natDegree < K) :
    psi u v f = ∑ i ∈ range K, (f.coeff i).eval₂ (Nat.castRingHom ℝ) v * u ^ i := by
  simp only [psi, coe_eval₂RingHom]
  exact eval₂_eq_sum_range' _ hK _

theorem abs_eval_le (g : ℕ[X]) {v : ℝ} (hv : |v| ≤ 1) : |g.eval₂ (Nat.castRingHom ℝ) v| ≤ g.eval 1 := by
  rw [eval₂_eq_sum_range, eval_eq_sum_range]
  push_cast
  refine (abs_sum_le_sum_abs _ _).trans (sum_le_sum fun i _ => ?_)
  rw [abs_mul, abs_pow, one_pow, mul_one]
  simp only [Nat.abs_cast]
  exact mul_le_of_le_one_right (Nat.cast_nonneg _) (pow_le_one₀ (abs_nonneg _) hv)

theorem abs_psi_le (f : Q) {u v : ℝ} (hu : |u| ≤ 1) (hv : |v| ≤ 1) : |psi u v f| ≤ nu f := by
  rw [psi_eq u v f (Nat.lt_succ_self _), nu, phi_eq 1 1 f (Nat.lt_succ_self _)]
  push_cast
  refine (abs_sum_le_sum_abs _ _).trans (sum_le_sum fun i _ => ?_)
  rw [abs_mul, abs_pow, one_pow, mul_one]
  have := abs_eval_le (f.coeff i) hv
  calc _ ≤ (((f.coeff i).eval 1 : ℕ) : ℝ) * 1 :=
        mul_le_mul this (pow_le_one₀ (abs_nonneg _) hu) (by positivity) (Nat.cast_nonneg _)
    _ = _ := mul_one _

theorem coeff_le_eval (g : ℕ[X]) (j : ℕ) : g.coeff j ≤ g.eval 1 := by
  by_cases h : j ≤ g.natDegree
  · rw [eval_eq_sum_range]
    simp only [one_pow, mul_one]
    exact single_le_sum (f := fun j => g.coeff j) (fun _ _ => Nat.zero_le _) (mem_range.2 (by omega))
  · rw [coeff_eq_zero_of_natDegree_lt (by omega)]; exact Nat.zero_le _

theorem eval_le_nu (f : Q) (i : ℕ) : (f.coeff i).eval 1 ≤ nu f := by
  by_cases h : i ≤ f.natDegree
  · rw [nu, phi_eq 1 1 f (Nat.lt_succ_self _)]
    simp only [one_pow, mul_one]
    exact single_le_sum (f := fun i => (f.coeff i).eval 1) (fun _ _ => Nat.zero_le _) (mem_range.2 (by omega))
  · rw [coeff_eq_zero_of_natDegree_lt (by omega)]; simp

theorem coeff_le_nu (f : Q) (i j : ℕ) : (f.coeff i).coeff j ≤ nu f :=
  (coeff_le_eval _ _).trans (eval_le_nu f i)

theorem modEq_sum {N : ℕ} {s : Finset ℕ} {f g : ℕ → ℕ} (h : ∀ i ∈ s, f i ≡ g i [MOD N]) :
    ∑ i ∈ s, f i ≡ ∑ i ∈ s, g i [MOD N] := by
  induction s using Finset.cons_induction with
  | empty => rfl
  | cons a s ha ih =>
    rw [sum_cons, sum_cons]
    exact (h a (by simp)).add (ih fun i hi => h i (by simp [hi]))

/-- casting out nines: the digit sum is the remainder by the base less one -/
theorem phi_mod (b w : ℕ) (f : Q) : phi (2 ^ b) (2 ^ (b * w)) f ≡ nu f [MOD (2 ^ b - 1)] := by
  have h1 : 2 ^ b ≡ 1 [MOD (2 ^ b - 1)] := by
    have : 1 ≤ 2 ^ b := Nat.one_le_two_pow
    exact ((Nat.modEq_iff_dvd' this).2 dvd_rfl).symm
  have h2 : 2 ^ (b * w) ≡ 1 [MOD (2 ^ b - 1)] := by
    rw [pow_mul]; simpa using h1.pow w
  have k (g : ℕ[X]) : g.eval (2 ^ b) ≡ g.eval 1 [MOD (2 ^ b - 1)] := by
    rw [eval_eq_sum_range, eval_eq_sum_range]
    refine modEq_sum fun i _ => (h1.pow i).mul_left _
  rw [phi_eq _ _ f (Nat.lt_succ_self _), nu, phi_eq 1 1 f (Nat.lt_succ_self _)]
  exact modEq_sum fun i _ => (k _).mul (h2.pow i)

/-! ### supports -/

/-- degree in v below n -/
def Supp (n : ℕ) (f : Q) : Prop := ∀ i j, n ≤ j → (f.coeff i).coeff j = 0

theorem Supp.mono {n n' : ℕ} {f : Q} (h : Supp n f) (hn : n ≤ n') : Supp n' f := fun i j hj => h i j (hn.trans hj)
theorem Supp.zero (n : ℕ) : Supp n 0 := fun i j _ => by simp
theorem Supp.add {n : ℕ} {f g : Q} (hf : Supp n f) (hg : Supp n g) : Supp n (f + g) := fun i j hj => by
  rw [coeff_add, coeff_add, hf i j hj, hg i j hj]
theorem Supp.nsmul {n : ℕ} {f : Q} (k : ℕ) (hf : Supp n f) : Supp n ((k : Q) * f) := fun i j hj => by
  rw [← C_eq_natCast, coeff_C_mul, ← C_eq_natCast, coeff_C_mul, hf i j hj, mul_zero]
theorem Supp.mul {n w : ℕ} {f g : Q} (hf : Supp n f) (hg : Supp n g) (hw : 2 * n ≤ w + 1) : Supp w (f * g) := by
  intro i j hj
  rw [coeff_mul, finsetSum_coeff]
  refine sum_eq_zero fun x _ => ?_
  rw [coeff_mul]
  refine sum_eq_zero fun y hy => ?_
  have := mem_antidiagonal.1 hy
  by_cases h : n ≤ y.1
  · rw [hf _ _ h, zero_mul]
  · rw [hg _ _ (by omega), mul_zero]

theorem Supp.eval_eq {w : ℕ} {f : Q} (hf : Supp w f) (i A : ℕ) :
    (f.coeff i).eval A = ∑ j ∈ range w, (f.coeff i).coeff j * A ^ j := by
  rw [eval_eq_sum_range' (n := (f.coeff i).natDegree + 1 + w) (by omega)]
  symm
  refine sum_subset (range_mono (by omega)) fun j _ hj => ?_
  rw [hf i j (by simpa using hj), zero_mul]

theorem Supp.eval_lt {b w : ℕ} {f : Q} (hf : Supp w f) (hb : ∀ i j, (f.coeff i).coeff j < 2 ^ b) (i : ℕ) :
    (f.coeff i).eval (2 ^ b) < 2 ^ (b * w) := by
  rw [hf.eval_eq, pow_mul]; exact sum_lt _ _ _ fun j => hb i j

/-- the polynomial with the given coefficients -/
noncomputable def mk (K w : ℕ) (c : ℕ → ℕ → ℕ) : Q := ∑ i ∈ range K, monomial i (∑ j ∈ range w, monomial j (c i j))

theorem mk_coeff (K w : ℕ) (c : ℕ → ℕ → ℕ) (i j : ℕ) :
    ((mk K w c).coeff i).coeff j = if i < K ∧ j < w then c i j else 0 := by
  rw [mk, finsetSum_coeff, finsetSum_coeff]
  simp only [coeff_monomial]
  by_cases hi : i < K
  · rw [sum_eq_single i (fun k _ hk => by simp [hk]) (fun h => absurd (mem_range.2 hi) h)]
    simp only [if_true, finsetSum_coeff, coeff_monomial]
    by_cases hj : j < w
    · rw [sum_eq_single j (fun k _ hk => by simp [hk]) (fun h => absurd (mem_range.2 hj) h)]
      simp [hi, hj]
    · rw [sum_eq_zero (fun k hk => if_neg (by have := mem_range.1 hk; omega))]
      simp [hj]
  · rw [sum_eq_zero]
    · simp [hi]
    · intro k hk
      rw [if_neg (by have := mem_range.1 hk; omega)]; simp

theorem mk_supp (K w : ℕ) (c : ℕ → ℕ → ℕ) : Supp w (mk K w c) := fun i j hj => by
  rw [mk_coeff, if_neg (by omega)]

theorem phi_mk (A C K w : ℕ) (c : ℕ → ℕ → ℕ) :
    phi A C (mk K w c) = ∑ i ∈ range K, (∑ j ∈ range w, c i j * A ^ j) * C ^ i := by
  rw [mk, map_sum]
  refine sum_congr rfl fun i _ => ?_
  simp only [phi, coe_eval₂RingHom, eval₂_monomial, coe_evalRingHom, eval_finsetSum, eval_monomial]

theorem Q.ext {f g : Q} (h : ∀ i j, (f.coeff i).coeff j = (g.coeff i).coeff j) : f = g :=
  Polynomial.ext fun i => Polynomial.ext fun j => h i j

/-- equal packed values of polynomials with small coefficients: equal polynomials -/
theorem phi_inj {b w : ℕ} {f g : Q} (hf : Supp w f) (hg : Supp w g)
    (bf : ∀ i j, (f.coeff i).coeff j < 2 ^ b) (bg : ∀ i j, (g.coeff i).coeff j < 2 ^ b)
    (e : phi (2 ^ b) (2 ^ (b * w)) f = phi (2 ^ b) (2 ^ (b * w)) g) : f = g := by
  have hK1 : f.natDegree < f.natDegree + g.natDegree + 1 := by omega
  have hK2 : g.natDegree < f.natDegree + g.natDegree + 1 := by omega
  rw [phi_eq _ _ f hK1, phi_eq _ _ g hK2] at e
  have k := sum_inj _ _ _ _ (fun i => hf.eval_lt bf i) (fun i => hg.eval_lt bg i) e
  refine Q.ext fun i j => ?_
  by_cases hi : i < f.natDegree + g.natDegree + 1
  · have ki := k i hi
    rw [hf.eval_eq, hg.eval_eq] at ki
    by_cases hj : j < w
    · exact sum_inj _ _ _ _ (fun j => bf i j) (fun j => bg i j) ki j hj
    · rw [hf i j (by omega), hg i j (by omega)]
  · rw [coeff_eq_zero_of_natDegree_lt (n := i) (p := f) (by omega),
      coeff_eq_zero_of_natDegree_lt (n := i) (p := g) (by omega)]

/-! ### truncation by a mask -/

/-- the digit of a mask at u^i v^j -/
def dig (b w M i j : ℕ) : ℕ := M / (2 ^ (b * w)) ^ i % 2 ^ (b * w) / (2 ^ b) ^ j % 2 ^ b

/-- the mask selects only v-degrees below n, and only high bits -/
def MaskOk (b w n m S M : ℕ) : Prop :=
  M < (2 ^ (b * w)) ^ m ∧ ∀ i < m, ∀ j < w, (n ≤ j → dig b w M i j = 0) ∧ dig b w M i j % 2 ^ S = 0

instance (b w n m S M : ℕ) : Decidable (MaskOk b w n m S M) := by unfold MaskOk; infer_instance

theorem MaskOk.dig_eq {b w n m S M : ℕ} (h : MaskOk b w n m S M) (i : ℕ) {j : ℕ} (hj : j < w) :
    (n ≤ j → dig b w M i j = 0) ∧ dig b w M i j % 2 ^ S = 0 := by
  by_cases hi : i < m
  · exact h.2 i hi j hj
  · have : M / (2 ^ (b * w)) ^ i = 0 := by
      refine Nat.div_eq_of_lt (lt_of_lt_of_le h.1 ?_)
      exact Nat.pow_le_pow_right (by positivity) (by omega)
    simp [dig, this]

theorem and_phi {b w : ℕ} {f : Q} (hf : Supp w f) (bf : ∀ i j, (f.coeff i).coeff j < 2 ^ b) (M : ℕ) :
    phi (2 ^ b) (2 ^ (b * w)) f &&& M
      = phi (2 ^ b) (2 ^ (b * w)) (mk (f.natDegree + 1) w fun i j => (f.coeff i).coeff j &&& dig b w M i j) := by
  rw [phi_eq _ _ f (Nat.lt_succ_self _), and_sum _ _ _ _ (fun i => hf.eval_lt bf i), phi_mk]
  refine sum_congr rfl fun i _ => ?_
  rw [hf.eval_eq, and_sum _ _ _ _ (fun j => bf i j)]
  rfl

/-- Truncation: the masked and shifted number packs a polynomial `f'`, and `f = 2^S f' + rest`. -/
theorem trunc {b w n m S M : ℕ} (hM : MaskOk b w n m S M) {f : Q} (hf : Supp w f)
    (bf : ∀ i j, (f.coeff i).coeff j < 2 ^ b) :
    ∃ f' rest : Q, Supp n f' ∧ phi (2 ^ b) (2 ^ (b * w)) f' = (phi (2 ^ b) (2 ^ (b * w)) f &&& M) >>> S ∧
      f = ((2 ^ S : ℕ) : Q) * f' + rest := by
  have hd : ∀ i j, j < w → 2 ^ S ∣ (f.coeff i).coeff j &&& dig b w M i j := fun i j hj => by
    refine Nat.dvd_of_mod_eq_zero ?_
    rw [Nat.and_mod_two_pow, (hM.dig_eq i hj).2, Nat.and_zero]
  have hS : 0 < 2 ^ S := by positivity
  refine ⟨mk (f.natDegree + 1) w fun i j => ((f.coeff i).coeff j &&& dig b w M i j) / 2 ^ S,
    mk (f.natDegree + 1) w fun i j => (f.coeff i).coeff j - ((f.coeff i).coeff j &&& dig b w M i j), ?_, ?_, ?_⟩
  · intro i j hj
    rw [mk_coeff]
    split
    · rename_i h
      rw [(hM.dig_eq i h.2).1 hj, Nat.and_zero, Nat.zero_div]
    · rfl
  · rw [and_phi hf bf, Nat.shiftRight_eq_div_pow, phi_mk, phi_mk]
    symm
    apply Nat.div_eq_of_eq_mul_right hS
    rw [mul_sum]
    refine sum_congr rfl fun i _ => ?_
    rw [← mul_assoc, mul_sum]
    congr 1
    refine sum_congr rfl fun j hj => ?_
    rw [← mul_assoc, Nat.mul_div_cancel' (hd i j (mem_range.1 hj))]
  · refine Q.ext fun i j => ?_
    rw [coeff_add, coeff_add, ← C_eq_natCast, coeff_C_mul, ← C_eq_natCast, coeff_C_mul, mk_coeff, mk_coeff]
    by_cases hj : j < w
    · by_cases hi : i < f.natDegree + 1
      · rw [if_pos ⟨hi, hj⟩, if_pos ⟨hi, hj⟩]
        have h1 := Nat.mul_div_cancel' (hd i j hj)
        have h2 : (f.coeff i).coeff j &&& dig b w M i j ≤ (f.coeff i).coeff j := Nat.and_le_left
        simp only [Nat.cast_id]
        omega
      · rw [coeff_eq_zero_of_natDegree_lt (n := i) (p := f) (by omega)]
        simp [hi]
    · rw [hf i j (by omega)]
      simp [hj]

/-- A number whose digits lie in the mask packs a polynomial. -/
theorem unpack {b w n m M N : ℕ} (hM : MaskOk b w n m 0 M) (hN : N &&& M = N) :
    ∃ f : Q, Supp n f ∧ phi (2 ^ b) (2 ^ (b * w)) f = N ∧ ∀ i, ∀ j < w, (f.coeff i).coeff j ≤ dig b w M i j := by
  have hlt : N < (2 ^ (b * w)) ^ m := lt_of_le_of_lt (hN ▸ Nat.and_le_right) hM.1
  have e1 : ∑ i ∈ range m, (N / (2 ^ (b * w)) ^ i % 2 ^ (b * w)) * (2 ^ (b * w)) ^ i = N :=
    digits_sum _ _ _ (by positivity) hlt
  have e2 (i : ℕ) : ∑ j ∈ range w, (N / (2 ^ (b * w)) ^ i % 2 ^ (b * w) / (2 ^ b) ^ j % 2 ^ b) * (2 ^ b) ^ j
      = N / (2 ^ (b * w)) ^ i % 2 ^ (b * w) :=
    digits_sum _ _ _ (by positivity) (by rw [← pow_mul 2 b w]; exact Nat.mod_lt _ (Nat.two_pow_pos _))
  have e3 : phi (2 ^ b) (2 ^ (b * w)) (mk m w (dig b w N)) = N := by
    rw [phi_mk]
    conv_rhs => rw [← e1]
    refine sum_congr rfl fun i _ => ?_
    rw [← e2 i]; rfl
  have hd : ∀ i < m, ∀ j < w, dig b w N i j = dig b w N i j &&& dig b w M i j := by
    have k1 : ∀ i < m, N / (2 ^ (b * w)) ^ i % 2 ^ (b * w)
        = N / (2 ^ (b * w)) ^ i % 2 ^ (b * w) &&& M / (2 ^ (b * w)) ^ i % 2 ^ (b * w) := by
      refine sum_inj (2 ^ (b * w)) m _ _ (fun i => Nat.mod_lt _ (by positivity))
        (fun i => lt_of_le_of_lt Nat.and_le_left (Nat.mod_lt _ (by positivity))) ?_
      have := and_sum (b * w) m (fun i => N / (2 ^ (b * w)) ^ i % 2 ^ (b * w)) M (fun i => Nat.mod_lt _ (by positivity))
      rw [← this, e1, hN]
    intro i hi
    refine sum_inj (2 ^ b) w _ _ (fun j => Nat.mod_lt _ (by positivity))
      (fun j => lt_of_le_of_lt Nat.and_le_left (Nat.mod_lt _ (by positivity))) ?_
    have := and_sum b w (fun j => N / (2 ^ (b * w)) ^ i % 2 ^ (b * w) / (2 ^ b) ^ j % 2 ^ b)
      (M / (2 ^ (b * w)) ^ i % 2 ^ (b * w)) (fun j => Nat.mod_lt _ (by positivity))
    unfold dig
    rw [← this, e2, ← k1 i hi]
  refine ⟨mk m w (dig b w N), ?_, e3, ?_⟩
  · intro i j hj
    rw [mk_coeff]
    split
    · rename_i h
      rw [hd i h.1 j h.2, (hM.dig_eq i h.2).1 hj, Nat.and_zero]
    · rfl
  · intro i j _
    rw [mk_coeff]
    split
    · rename_i h
      rw [hd i h.1 j h.2]; exact Nat.and_le_right
    · exact Nat.zero_le _

end If97.Tm
