import Verif.Lemmas.Terminate
import Verif.Lemmas.Gibbs
import Verif.Lemmas.HangDetect
import Verif.Lemmas.Tm.Hang
import Verif.Props.C02

/-!
# C35 Every call returns

* `pt, ph, ps, pv, ts` with or without a region, and `px, tx, hx, sx`, return for all
  inputs whatever the number type does (`C35_counted`, `C35_quality`).
* `tv` and `th` contain uncounted loops (bracketing in regions 2 and 5, the search of
  the smallest enthalpy in the detector of `th`); in exact arithmetic they end for all
  inputs (`C35_tv`, `C35_th`).
* `hs` has two uncounted loops in region 4.  `C35_hs_partial` shows that the call returns
  unless region 4 is used with an entropy outside (5.210887825, 9.155759395), and
  `C35_hs_bisection` that the first of the two loops always ends.  The second loop (a
  fixed-point iteration in the pressure without a counter) need not end:
  `C35_hs_violated` gives a whole interval of wet-steam states for which `hs` never
  returns, even in exact arithmetic.  The entropy the loop computes jumps at the pressure
  where the code changes from regions 1 and 2 to region 3, and the iteration crosses that
  pressure back and forth.
-/

namespace If97

section Generic
variable {F : Type} [Add F] [Sub F] [Mul F] [Div F] [Neg F] [OfScientific F] [Flt F]

private theorem pair_returns (v1 v2 : F) (o : Int) (fr : F → F → Option Int)
    (f1 f2 f3 f4 f5 : F → F → Int → Option F) (reg : Int)
    (hr : (fr v1 v2).isSome) (h1 : ∀ o, (f1 v1 v2 o).isSome) (h2 : ∀ o, (f2 v1 v2 o).isSome)
    (h3 : ∀ o, (f3 v1 v2 o).isSome)
    (h4 : (if reg = REGION_NONE then fr v1 v2 = some 4 else reg = 4) → ∀ o, (f4 v1 v2 o).isSome)
    (h5 : ∀ o, (f5 v1 v2 o).isSome) :
    (pair_properties v1 v2 o fr f1 f2 f3 f4 f5 reg).isSome := by
  obtain ⟨r, hr⟩ := Option.isSome_iff_exists.mp hr
  have key : ∀ r : Int, (r = 4 → ∀ o, (f4 v1 v2 o).isSome) →
      (pair_properties v1 v2 o (fun _ _ => some r) f1 f2 f3 f4 f5 REGION_NONE).isSome := by
    intro r h4
    simp only [pair_properties]
    simp only [beq_self_eq_true, if_true, Option.bind_eq_bind, Option.bind_some]
    split
    · rfl
    · split
      · split
        · rfl
        · split
          · rfl
          · split
            · rename_i h; exact h4 (beq_iff_eq.mp h) _
            · rfl
      · repeat' split
        all_goals first | rfl | exact h1 _ | exact h2 _ | exact h3 _ | exact h5 _ | skip
        rename_i h; exact h4 (beq_iff_eq.mp h) _
  by_cases hn : reg = REGION_NONE
  · subst hn
    have := key r (by intro e; apply h4; rw [if_pos rfl, hr, e])
    simpa only [pair_properties, hr] using this
  · have := key reg (by intro e; apply h4; rw [if_neg hn, e])
    have e : (reg == REGION_NONE) = false := by simpa using hn
    simp only [pair_properties, e] at this ⊢
    simpa using this

private theorem call_returns (f : Fn) (a b : F) (o r : Int)
    (h : o ≠ f.id1 → o ≠ f.id2 → (f.call a b o r).isSome) : (f.call a b o r).isSome := by
  by_cases h1 : o = f.id1
  · subst h1; cases f <;> rfl
  · by_cases h2 : o = f.id2
    · subst h2; cases f <;> rfl
    · exact h h1 h2

/-- no function asks for an input twice: the two echo tests, then the dispatch -/
private theorem two_ite {c1 c2 : Bool} {x y z : Option F} (hx : x.isSome) (hy : y.isSome) (hz : z.isSome) :
    (if c1 = true then x else if c2 = true then y else z).isSome := by
  split
  · exact hx
  · split
    · exact hy
    · exact hz

/-- **C35** `pt, ph, ps, pv, ts` return a value for every input, every output and every region
argument, whatever the arithmetic. -/
theorem C35_counted (f : Fn) (hf : f = .pt ∨ f = .ph ∨ f = .ps ∨ f = .pv ∨ f = .ts) (a b : F) (o r : Int) :
    (f.call a b o r).isSome := by
  rcases hf with h | h | h | h | h <;> subst h <;>
  exact two_ite rfl rfl (pair_returns _ _ _ _ _ _ _ _ _ _ rfl (fun _ => rfl) (fun _ => rfl) (fun _ => rfl)
    (fun _ _ => rfl) (fun _ => rfl))

/-- **C35** `px, tx, hx, sx` return a value for every input and every output. -/
theorem C35_quality (f : FnX) (a b : F) (o : Int) : (f.call a b o).isSome := by
  cases f
  case px => show (if _ = true then _ else _ : Option F).isSome; split; rfl; exact two_ite rfl rfl rfl
  case tx =>
    refine two_ite rfl rfl ?_
    show (if _ = true then _ else _ : Option F).isSome
    split <;> rfl
  case hx => show (if _ = true then _ else _ : Option F).isSome; split; rfl; exact two_ite rfl rfl rfl
  case sx => show (if _ = true then _ else _ : Option F).isSome; split; rfl; exact two_ite rfl rfl rfl

end Generic

/-! ### tv -/

private theorem tv2_some (a b : ℝ) (o : Int) : (tv_reg2 a b o).isSome := by
  obtain ⟨p, hp⟩ := Option.isSome_iff_exists.mp (Tv2p_reg2_returns (a + K) b)
  simp only [tv_reg2, hp]
  show (if _ = true then _ else _ : Option ℝ).isSome
  split <;> rfl

private theorem tv5_some (a b : ℝ) (o : Int) : (tv_reg5 a b o).isSome := by
  obtain ⟨p, hp⟩ := Option.isSome_iff_exists.mp (Tv2p_reg5_returns (a + 273.15) b)
  simp only [tv_reg5, hp]
  split
  · rfl
  · show (if _ = true then _ else _ : Option ℝ).isSome
    split <;> rfl

private theorem th2_some (a b : ℝ) (o : Int) : (th_reg2 a b o).isSome := by
  obtain ⟨p, hp⟩ := Option.isSome_iff_exists.mp (Th2p_reg2_returns (a + 273.15) b)
  simp only [th_reg2, hp]
  show (if _ = true then _ else _ : Option ℝ).isSome
  split <;> rfl

/-- **C35** `tv` returns a value for every input (exact arithmetic). -/
theorem C35_tv (t v : ℝ) (o r : Int) : (Fn.tv.call t v o r).isSome :=
  two_ite rfl rfl (pair_returns _ _ _ _ _ _ _ _ _ _ rfl (fun _ => rfl) (tv2_some t v) (fun _ => rfl)
    (fun _ _ => rfl) (tv5_some t v))

/-! ### th: the search of the smallest enthalpy -/

/-- |Σ f(e) x^I| ≤ (Σ |f(e)|)·|x|^m when all exponents are in 0..m and |x| ≥ 1 -/
private theorem abs_sum_le (l : List (Int × Int × ℝ)) (f : Int × Int × ℝ → ℝ) (x : ℝ) (m : ℕ) (hx : 1 ≤ |x|)
    (hI : ∀ e ∈ l, 0 ≤ e.1 ∧ e.1 ≤ m) :
    |(l.map fun e => f e * x ^ e.1).sum| ≤ (l.map fun e => |f e|).sum * |x| ^ m := by
  induction l with
  | nil => simp
  | cons e l ih =>
    simp only [List.map_cons, List.sum_cons]
    obtain ⟨h0, h1⟩ := hI e (by simp)
    have ih := ih (fun e' he' => hI e' (by simp [he']))
    obtain ⟨k, hk⟩ := Int.eq_ofNat_of_zero_le h0
    have hp : |f e * x ^ e.1| ≤ |f e| * |x| ^ m := by
      rw [abs_mul, hk, zpow_natCast, abs_pow]
      exact mul_le_mul_of_nonneg_left (pow_le_pow_right₀ hx (by omega)) (abs_nonneg _)
    calc _ ≤ |f e * x ^ e.1| + _ := abs_add_le _ _
      _ ≤ |f e| * |x| ^ m + _ := add_le_add hp ih
      _ = _ := by ring

private theorem h1_form (p T : ℝ) (hT : T ≠ 0) : pT2h_reg1 p T = gasR * 1386 *
    ((r1_IJn.map fun e => (e.2.2 * e.2.1 * (1386 / T - 1.222) ^ (e.2.1 - 1)) * (7.1 - p / 16.53) ^ e.1).sum) := by
  have e : (r1_IJn.map fun e => (e.2.2 * e.2.1 * (1386 / T - 1.222) ^ (e.2.1 - 1)) * (7.1 - p / 16.53) ^ e.1).sum
      = poly_j_powi (7.1 - p / 16.53) (1386 / T - 1.222 : ℝ) r1_IJn := by
    rw [poly_j_powi_sum]
    refine congrArg List.sum (List.map_congr_left fun e _ => ?_)
    ring
  rw [e, ← V1.Ts.trans (by norm_num [G1] : G1.Ts = 1386), ← show (r1pstar : ℝ) = 16.53 from rfl,
    ← (C09_region1 (F := ℝ) _ _).2.2.2.1]
  simp only [pT2h_reg1, show (RGAS_WATER : ℝ) = gasR from rfl]
  field_simp

/-- the enthalpy of region 1 grows without bound with the pressure -/
private theorem h1_unbounded (T B : ℝ) (hT : 273.15 ≤ T) (hT' : T ≤ 623.15) :
    ∃ P : ℝ, ∀ p ≥ P, B < pT2h_reg1 p T := by
  set y : ℝ := 1386 / T - 1.222 with hy
  have hy0 : 0 < y := by
    have : (2 : ℝ) ≤ 1386 / T := by rw [le_div_iff₀ (by linarith)]; linarith
    linarith
  let c : Int × Int × ℝ → ℝ := fun e => e.2.2 * e.2.1 * y ^ (e.2.1 - 1)
  let l : List (Int × Int × ℝ) := r1_IJn.dropLast
  let C : ℝ := (l.map fun e => |c e|).sum
  let a : ℝ := c (32, -41, -0.93537087292458e-25)
  have ha : 0 < a := by
    have : 0 < y ^ ((-41 : Int) - 1) := zpow_pos hy0 _
    show 0 < (-0.93537087292458e-25 : ℝ) * ((-41 : Int) : ℝ) * y ^ ((-41 : Int) - 1)
    apply mul_pos _ this
    norm_num
  have hC : 0 ≤ C := List.sum_nonneg (by
    intro z hz; obtain ⟨e, _, rfl⟩ := List.mem_map.mp hz; exact abs_nonneg _)
  have hR : 0 < (gasR : ℝ) * 1386 := by norm_num [gasR]
  -- take |x| ≥ X
  let X : ℝ := (C + |B| / (gasR * 1386) + 1) / a + 1
  have hX1 : 1 ≤ X := by
    have : 0 ≤ |B| / (gasR * 1386) := div_nonneg (abs_nonneg _) hR.le
    have : 0 ≤ (C + |B| / (gasR * 1386) + 1) / a := div_nonneg (by linarith) ha.le
    show 1 ≤ _ + 1; linarith
  refine ⟨16.53 * (X + 7.1), fun p hp => ?_⟩
  rw [h1_form p T (by linarith)]
  have hp' : X + 7.1 ≤ p / 16.53 := by rw [le_div_iff₀ (by norm_num)]; linarith
  generalize hx : (7.1 : ℝ) - p / 16.53 = x
  have hxX : x ≤ -X := by linarith
  have habs : X ≤ |x| := by rw [abs_of_nonpos (by linarith)]; linarith
  have hsplit : (r1_IJn.map fun e => c e * x ^ e.1).sum = (l.map fun e => c e * x ^ e.1).sum + a * x ^ (32 : Int) := by
    have : (r1_IJn : List (Int × Int × ℝ)) = l ++ [(32, -41, -0.93537087292458e-25)] := rfl
    rw [this]; simp [a]
  have hl := abs_sum_le l c x 31 (by linarith) (by
    intro e he
    have : e.1 ∈ (l.map fun e => e.1) := List.mem_map.mpr ⟨e, he, rfl⟩
    have hlist : (l.map fun e => e.1) = [0,0,0,0,0,0,0,0,1,1,1,1,1,1,2,2,2,2,2,3,3,3,4,4,4,5,8,8,21,23,29,30,31] := rfl
    rw [hlist] at this
    have hall : ∀ i ∈ ([0,0,0,0,0,0,0,0,1,1,1,1,1,1,2,2,2,2,2,3,3,3,4,4,4,5,8,8,21,23,29,30,31] : List Int), 0 ≤ i ∧ i ≤ 31 := by decide
    exact hall _ this)
  show B < gasR * 1386 * (r1_IJn.map fun e => c e * x ^ e.1).sum
  rw [hsplit]
  have hx32 : x ^ (32 : Int) = |x| ^ 31 * |x| := by
    rw [← pow_succ, Even.pow_abs (by decide)]; exact zpow_ofNat x 32
  rw [hx32]
  have h31 : 1 ≤ |x| ^ 31 := one_le_pow₀ (by linarith)
  have hmain : |B| / (gasR * 1386) + 1 ≤ a * |x| - C := by
    have h1 : (C + |B| / (gasR * 1386) + 1) ≤ a * (X - 1) := by
      show _ ≤ a * ((C + |B| / (gasR * 1386) + 1) / a + 1 - 1)
      rw [add_sub_cancel_right, mul_div_cancel₀ _ ha.ne']
    nlinarith
  have hlow : |B| / (gasR * 1386) + 1 ≤ (l.map fun e => c e * x ^ e.1).sum + a * (|x| ^ 31 * |x|) := by
    have h2 := (abs_le.mp hl).1
    have h3 : 0 ≤ |B| / (gasR * 1386) := div_nonneg (abs_nonneg _) hR.le
    have h4 : (a * |x| - C) * 1 ≤ (a * |x| - C) * |x| ^ 31 := mul_le_mul_of_nonneg_left h31 (by linarith)
    have : C = (l.map fun e => |c e|).sum := rfl
    rw [← this] at h2
    linarith
  have h5 : |B| < gasR * 1386 * ((l.map fun e => c e * x ^ e.1).sum + a * (|x| ^ 31 * |x|)) := by
    have := mul_le_mul_of_nonneg_left hlow hR.le
    rw [mul_add, mul_div_cancel₀ _ hR.ne'] at this
    linarith
  exact lt_of_le_of_lt (le_abs_self B) h5

private theorem hmin_steps (T B P : ℝ) (hP : ∀ p ≥ P, B < pT2h_reg1 p T) (n : ℕ) :
    ∀ p11 Hmin : ℝ, Hmin ≤ B → P ≤ p11 + 0.1 * (n + 1) → (th_Hmin_loop T p11 Hmin).isSome := by
  induction n with
  | zero =>
    intro p11 Hmin hB hp
    rw [th_Hmin_loop]
    have : ¬ (Flt.lt (pT2h_reg1 (p11 + 0.1) T) Hmin = true) := by
      rw [real_lt, decide_eq_true_eq]; push Not
      have := hP (p11 + 0.1) (by norm_num at hp ⊢; linarith)
      linarith
    simp only [if_neg this]; rfl
  | succ n ih =>
    intro p11 Hmin hB hp
    rw [th_Hmin_loop]
    by_cases h : Flt.lt (pT2h_reg1 (p11 + 0.1) T) Hmin = true
    · simp only [if_pos h]
      apply ih
      · rw [real_lt, decide_eq_true_eq] at h; linarith
      · push_cast at hp; linarith
    · simp only [if_neg h]; rfl

/-- the search of the smallest enthalpy ends from every starting point, for every
temperature at which the code can reach it -/
private theorem hmin_returns (T p11 Hmin : ℝ) (hT : 273.15 ≤ T) (hT' : T ≤ 623.15) :
    (th_Hmin_loop T p11 Hmin).isSome := by
  obtain ⟨P, hP⟩ := h1_unbounded T Hmin hT hT'
  obtain ⟨n, hn⟩ := exists_nat_ge (10 * (P - p11))
  exact hmin_steps T Hmin P hP n p11 Hmin le_rfl (by linarith)

private theorem th_detect (t h : ℝ) : (th_sub_region t h).isSome := by
  unfold th_sub_region
  extract_lets T hpmax2 hp100
  split
  · rfl
  · split
    rename_i hpm50 hpmax5 _
    split
    rename_i hsw hss p1 hB23 _
    split
    · rfl
    · split
      · rename_i hc
        simp only [Bool.and_eq_true, real_le, real_lt, decide_eq_true_eq] at hc
        simp only []
        split
        · obtain ⟨m, hm⟩ := Option.isSome_iff_exists.mp (hmin_returns T (p1 + 0.1) hsw (by linarith [hc.1.1.1])
            (by have := hc.1.1.2; simp only [T_MAX1] at this; exact this))
          simp only [hm]
          show (if _ = true then _ else _ : Option Int).isSome
          split <;> rfl
        · rfl
      · repeat' split
        all_goals rfl

/-- **C35** `th` returns a value for every input (exact arithmetic). -/
theorem C35_th (t h : ℝ) (o r : Int) : (Fn.th.call t h o r).isSome :=
  two_ite rfl rfl (pair_returns _ _ _ _ _ _ _ _ _ _ (th_detect t h) (fun _ => rfl) (th2_some t h) (fun _ => rfl)
    (fun _ _ => rfl) (fun _ => rfl))

/-! ### hs -/

/-- **C35 (partial)** `hs` returns a value whenever region 4 is not used, or the entropy is between
5.210887825 and 9.155759395 kJ/(kg K) (exclusive), where the temperature is explicit.
Missing: region 4 with other entropies. -/
theorem C35_hs_partial (h s : ℝ) (o r : Int)
    (hr : (if r = 10 then Fn.hs.detect h s = some 4 else r = 4) → 5.210887825 < s ∧ s < 9.155759395) :
    (Fn.hs.call h s o r).isSome := by
  refine two_ite rfl rfl (pair_returns _ _ _ _ _ _ _ _ _ _ rfl (fun _ => rfl) (fun _ => rfl) (fun _ => rfl)
    (fun h4 o => ?_) (fun _ => rfl))
  obtain ⟨h1, h2⟩ := hr h4
  have e : hs2T_reg4 h s = some (hs2T_reg43 h s) := by
    rw [hs2T_reg4, if_pos]
    · rfl
    · rw [Bool.and_eq_true, real_lt, real_lt, decide_eq_true_eq, decide_eq_true_eq]
      exact ⟨h1, h2⟩
  simp only [hs_reg4, e]
  show (if _ = true then _ else if _ = true then _ else if _ = true then _ else if _ = true then _ else _ : Option ℝ).isSome
  repeat' split
  all_goals rfl

private theorem bisect_steps (h : ℝ) (n : ℕ) : ∀ hL lo hi : ℝ, |hi - lo| ≤ 1e-4 * 2 ^ n →
    (hs2T_reg4_bisect h hL lo hi).isSome := by
  induction n with
  | zero =>
    intro hL lo hi hw
    rw [hs2T_reg4_bisect, if_neg]; rfl
    simp only [Bool.and_eq_true, real_lt, real_abs, decide_eq_true_eq]
    rintro ⟨_, h2⟩; norm_num at hw h2; linarith
  | succ n ih =>
    intro hL lo hi hw
    rw [hs2T_reg4_bisect]
    have hhalf : |hi - lo| / 2 ≤ 1e-4 * 2 ^ n := by rw [pow_succ] at hw; linarith
    split
    · simp only []
      split
      · apply ih
        have : (0.5 * (lo + hi) - lo : ℝ) = (hi - lo) / 2 := by norm_num; ring
        rw [this, abs_div, abs_two]; exact hhalf
      · apply ih
        have : (hi - 0.5 * (lo + hi) : ℝ) = (hi - lo) / 2 := by norm_num; ring
        rw [this, abs_div, abs_two]; exact hhalf
    · rfl

/-- the first loop of the region 4 inversion of `hs` ends for every input and every
starting interval -/
theorem C35_hs_bisection (h hL lo hi : ℝ) : (hs2T_reg4_bisect h hL lo hi).isSome := by
  obtain ⟨n, hn⟩ := pow_unbounded_of_one_lt (|hi - lo| * 1e4) (one_lt_two)
  exact bisect_steps h n hL lo hi (by norm_num at hn ⊢; linarith)

/-- not vacuous: a wet-steam call (s = 7) and a superheated call that satisfy the hypothesis -/
example : (Fn.hs.call (2000 : ℝ) 7 Doc.idT 4).isSome :=
  C35_hs_partial _ _ _ _ fun _ => by norm_num

example : (Fn.hs.call (3000 : ℝ) 7 Doc.idT 2).isSome :=
  C35_hs_partial _ _ _ _ fun h => by norm_num at h

/-- **C35 (violated)** For h = 1680 kJ/kg and every entropy from 3.792947 to 3.792949 kJ/(kg K), a wet-steam
state at about 16.53 MPa, `hs` never returns: with the region left to the function or given as 4, and for every
output other than the inputs and the region. -/
theorem C35_hs_violated (s : ℝ) (s1 : 3.792947 ≤ s) (s2 : s ≤ 3.792949) (o : Int) (ho : ¬ Fn.hs.Echo o) (hR : o ≠ Doc.idR) :
    Fn.hs.call0 1680 s o = none ∧ Fn.hs.call 1680 s o 4 = none ∧ Fn.hs.detect 1680 s = some 4 := by
  have hd := Hang.detect s1 s2
  have k : hs2T_reg4 1680 s = none := by
    have c1 : ¬ (s >. s4V_623 && s <. s4V_273) = true := by
      simp only [s4V_623, s4V_273, real_lt, Bool.and_eq_true, decide_eq_true_eq]; rintro ⟨h, -⟩; norm_num at *; linarith
    have c2 : ¬ (s >. s4L_273 && s <=. s4L_623) = true := by
      simp only [s4L_273, s4L_623, real_lt, real_le, Bool.and_eq_true, decide_eq_true_eq]; rintro ⟨-, h⟩; norm_num at *; linarith
    have c3 : (s >. s4L_623 && s <=. SC_WATER) = true := by
      simp only [s4L_623, SC_WATER, real_lt, real_le, Bool.and_eq_true, decide_eq_true_eq]
      constructor <;> norm_num at * <;> linarith
    have c4 : ¬ (s >. SC_WATER && s <=. s4V_623) = true := by
      simp only [SC_WATER, s4V_623, real_lt, real_le, Bool.and_eq_true, decide_eq_true_eq]; rintro ⟨h, -⟩; norm_num at *; linarith
    obtain ⟨b1, b2⟩ := Hang.start
    have e := Tm.loop_none s1 s2 (sss := -1000.0) (p := 0.0) (lo := P_MIN) (hi := h2p_sat_reg3 1680)
      (by rw [lt_abs]; left; norm_num at *; linarith) b1 (by norm_num at *; linarith)
    unfold hs2T_reg4
    simp only [if_neg c1, if_neg c2, if_pos c3, if_neg c4, Option.bind_eq_bind, Option.bind_some, e, Option.bind_none]
  have k4 : ∀ o, hs_reg4 1680 s o = none := fun o => by
    unfold hs_reg4; simp only [k, Option.bind_eq_bind, Option.bind_none]
  have hH : ¬ (o == OH) = true := fun h => ho (.inl (beq_iff_eq.mp h))
  have hS : ¬ (o == OS) = true := fun h => ho (.inr (beq_iff_eq.mp h))
  have hR' : ¬ (o == OR) = true := fun h => hR (beq_iff_eq.mp h)
  have key : ∀ r : Int, r = 10 ∨ r = 4 → pair_properties 1680 s o (liftR hs_sub_region) (liftP hs_reg1) (liftP hs_reg2)
      (liftP hs_reg3) hs_reg4 (liftP hs_reg5) r = none := by
    intro r hr
    have fin : (if (o == OX) = true then hs_reg4 1680 s OX else hs_reg4 1680 s o) = none := by
      split <;> exact k4 _
    unfold pair_properties
    rcases hr with rfl | rfl
    · simp only [REGION_NONE, beq_self_eq_true, if_true, liftR, hd, Option.bind_eq_bind, Option.bind_some, if_neg hR']
      exact fin
    · simp only [show ¬ ((4 : Int) == REGION_NONE) = true by decide, Option.bind_eq_bind, Option.bind_some, if_neg hR']
      exact fin
  refine ⟨?_, ?_, congrArg some hd⟩
  · show (if (o == OH) = true then _ else if (o == OS) = true then _ else _) = none
    rw [if_neg hH, if_neg hS]; exact key _ (.inl rfl)
  · show (if (o == OH) = true then _ else if (o == OS) = true then _ else _) = none
    rw [if_neg hH, if_neg hS]; exact key _ (.inr rfl)

/-- the temperature of the state h = 1680, s = 3.792948 is never delivered -/
example : Fn.hs.call0 (1680 : ℝ) 3.792948 Doc.idT = none :=
  (C35_hs_violated _ (by norm_num) (by norm_num) _ (by decide) (by decide)).1

end If97
