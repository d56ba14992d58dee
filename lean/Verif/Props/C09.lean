import Verif.Lemmas.Steps
import Verif.Model.R1
import Verif.Model.R2
import Verif.Model.R3
import Verif.Model.R3v
import Verif.Inst.Real
import Mathlib.Tactic.NormNum
import Mathlib.Tactic.Linarith

/-!
# C09 Multi-step summation covers every coefficient exactly once

`visited steps` is the list of table indices a step list visits, in order.  The
property for a table of `n` rows is `visited steps = [0, 1, ..., n-1]`: then the loop
never indexes outside the table (the checked loop does not panic) and it performs, in
the same order, exactly the operations of the plain loop over the table, so the two
results are the same f64 bit for bit.  Generic in the number type.
-/

namespace If97
set_option linter.unusedSectionVars false

variable {F : Type} [Add F] [Sub F] [Mul F] [Div F] [Neg F] [OfScientific F] [Flt F]

omit [Add F] [Sub F] [Mul F] [Div F] [Neg F] [Flt F] in
/-- General theorem: a step list that visits 0, 1, ..., n-1 is safe and equals the plain loop,
for every loop body and every table. -/
theorem C09_steps_general {σ : Type} (body : σ → Int × Int × F → σ) (init : σ) (IJn : List (Int × Int × F))
    (steps : List (Nat × Nat)) (h : visited steps = List.range IJn.length) :
    stepsFold? body init IJn steps = some (IJn.foldl body init) ∧
    stepsFold body init IJn steps = IJn.foldl body init :=
  ⟨stepsFold?_eq body init IJn steps h, stepsFold_eq body init IJn steps h⟩

/-- A step list that is consecutive from 0 to n visits 0, ..., n-1 (no bound on the number of steps). -/
theorem C09_consecutive (cuts : List Nat) (n : Nat) (h : (0 :: cuts).Pairwise (· ≤ ·))
    (hn : cuts.getLastD 0 = n) : visited ((0 :: cuts).zip cuts) = List.range n := by
  have gen : ∀ (cuts : List Nat) (lo : Nat), (lo :: cuts).Pairwise (· ≤ ·) →
      visited ((lo :: cuts).zip cuts) = List.range' lo (cuts.getLastD lo - lo) := by
    intro cuts
    induction cuts with
    | nil => intro lo _; simp [visited]
    | cons c cuts ih =>
      intro lo hp
      have hp' := (List.pairwise_cons.mp hp).2
      have hlo : lo ≤ c := (List.pairwise_cons.mp hp).1 c (by simp)
      have hlast : c ≤ cuts.getLastD c := by
        rcases List.mem_cons.mp (List.getLastD_mem_cons (l := cuts) (a := c)) with h | h
        · omega
        · exact (List.pairwise_cons.mp hp').1 _ h
      have := ih c hp'
      simp only [visited, List.zip_cons_cons, List.flatMap_cons] at this ⊢
      rw [this, List.getLastD_cons]
      have e1 : cuts.getLastD c - lo = (c - lo) + (cuts.getLastD c - c) := by omega
      have e2 : lo + (c - lo) = c := by omega
      rw [e1, ← List.range'_append_1, e2]
  rw [gen cuts 0 h, hn, List.range_eq_range']; simp

/-- Every (table, step list) pair used in the crate, with one exception (3l). -/
def stepUses : List (List (Int × Int × F) × List (Nat × Nat)) :=
  [ (r1_IJn, gamma_reg1_steps), (r1_IJn, gamma_pi_reg1_steps), (r1_IJn, gamma_pipi_reg1_steps),
    (r1_IJn, gamma_tau_reg1_steps), (r1_IJn, gamma_tautau_reg1_steps), (r1_IJn, gamma_pitau_reg1_steps),
    (r1_IJn, polys_i_j_powi_reg1_steps), (r1_IJn, polys_i_ii_powi_reg1_steps), (r1_IJn, polys_0_j_powi_reg1_steps),
    (r1_IJn, polys_i_ij_powi_reg1_steps), (r1_IJn, polys_i_ii_ij_jj_powi_reg1_steps),
    (r2_IJn, gammar_reg2_steps), (r2_IJn, gammar_pi_reg2_steps), (r2_IJn, gammar_pipi_reg2_steps),
    (r2_IJn, gammar_tau_reg2_steps), (r2_IJn, gammar_tautau_reg2_steps), (r2_IJn, gammar_pitau_reg2_steps),
    (r2_IJn, polys_0_j_powi_reg2_steps), (r2_IJn, polys_i_j_powi_reg2_steps),
    (r2_IJn, polys_i_ii_ij_jj_powi_reg2_steps),
    (ph2T_reg2b_IJn, ph2T_reg2b_steps), (ps2T_reg2b_IJn, ps2T_reg2b_steps),
    (r3_IJn, phi_reg3_steps), (r3_IJn, phi_delta_reg3_steps), (r3_IJn, phi_deltadelta_reg3_steps),
    (r3_IJn, phi_tau_reg3_steps), (r3_IJn, phi_tautau_reg3_steps), (r3_IJn, phi_deltatau_reg3_steps),
    (r3_IJn, polys_0_j_powi_reg3_steps), (r3_IJn, polys_i_j_powi_reg3_steps),
    (r3_IJn, polys_i_ii_ij_jj_powi_reg3_steps),
    (pT2v_3d_IJn, pT2v_3d_steps), (pT2v_3f_IJn, pT2v_3f_steps), (pT2v_3g_IJn, pT2v_3g_steps),
    (pT2v_3i_IJn, pT2v_3i_steps), (pT2v_3m_IJn, pT2v_3m_steps), (pT2v_3n_IJn, pT2v_3n_steps),
    (pT2v_3u_IJn, pT2v_3u_steps), (pT2v_3v_IJn, pT2v_3v_steps) ]

/-- All uses except 3l visit every row of their table exactly once, in order. -/
theorem C09_visited : ∀ u ∈ stepUses (F := F), visited u.2 = List.range u.1.length := by
  simp only [stepUses, List.forall_mem_cons, List.not_mem_nil, false_imp_iff, implies_true, and_true]
  repeat' constructor

/-- Hence they never panic and are bitwise the plain loop, for any loop body. -/
theorem C09_steps_partial {σ : Type} (body : σ → Int × Int × F → σ) (init : σ) :
    ∀ u ∈ stepUses (F := F), stepsFold? body init u.1 u.2 = some (u.1.foldl body init) ∧
      stepsFold body init u.1 u.2 = u.1.foldl body init :=
  fun u hu => C09_steps_general body init u.1 u.2 (C09_visited u hu)

/-! ### What the exported evaluators compute

The plain loops on the right are the one-pass functions of `src/algo/polynomial.rs`. -/

theorem C09_region1 (pi tau : F) :
    gamma_reg1 pi tau = poly_powi (7.1 - pi) (tau - 1.222) r1_IJn ∧
    gamma_pi_reg1 pi tau = -poly_i_powi (7.1 - pi) (tau - 1.222) r1_IJn ∧
    gamma_pipi_reg1 pi tau = poly_ii_powi (7.1 - pi) (tau - 1.222) r1_IJn ∧
    gamma_tau_reg1 pi tau = poly_j_powi (7.1 - pi) (tau - 1.222) r1_IJn ∧
    gamma_tautau_reg1 pi tau = poly_jj_powi (7.1 - pi) (tau - 1.222) r1_IJn := by
  simp only [gamma_reg1, gamma_pi_reg1, gamma_pipi_reg1, gamma_tau_reg1, gamma_tautau_reg1,
    poly_powi_steps, poly_i_powi_steps, poly_ii_powi_steps, poly_j_powi_steps, poly_jj_powi_steps]
  refine ⟨stepsFold_eq _ _ _ _ rfl, congrArg _ (stepsFold_eq _ _ _ _ rfl), stepsFold_eq _ _ _ _ rfl,
    stepsFold_eq _ _ _ _ rfl, stepsFold_eq _ _ _ _ rfl⟩

theorem C09_region2 (pi tau : F) :
    gammar_reg2 pi tau = poly_powi pi (tau - 0.5) r2_IJn ∧
    gammar_pi_reg2 pi tau = poly_i_powi pi (tau - 0.5) r2_IJn ∧
    gammar_pipi_reg2 pi tau = poly_ii_powi pi (tau - 0.5) r2_IJn ∧
    gammar_tau_reg2 pi tau = poly_j_powi pi (tau - 0.5) r2_IJn ∧
    gammar_tautau_reg2 pi tau = poly_jj_powi pi (tau - 0.5) r2_IJn := by
  simp only [gammar_reg2, gammar_pi_reg2, gammar_pipi_reg2, gammar_tau_reg2, gammar_tautau_reg2,
    poly_powi_steps, poly_i_powi_steps, poly_ii_powi_steps, poly_j_powi_steps, poly_jj_powi_steps]
  refine ⟨stepsFold_eq _ _ _ _ rfl, stepsFold_eq _ _ _ _ rfl, stepsFold_eq _ _ _ _ rfl,
    stepsFold_eq _ _ _ _ rfl, stepsFold_eq _ _ _ _ rfl⟩

theorem C09_region3 (delta tau : F) :
    phi_reg3 delta tau = n1 * Flt.ln delta + poly_powi delta tau r3_IJn ∧
    phi_delta_reg3 delta tau = n1 / delta + poly_i_powi delta tau r3_IJn ∧
    phi_deltadelta_reg3 delta tau = -n1 / delta / delta + poly_ii_powi delta tau r3_IJn ∧
    phi_tau_reg3 delta tau = poly_j_powi delta tau r3_IJn ∧
    phi_tautau_reg3 delta tau = poly_jj_powi delta tau r3_IJn := by
  simp only [phi_reg3, phi_delta_reg3, phi_deltadelta_reg3, phi_tau_reg3, phi_tautau_reg3,
    poly_powi_steps, poly_i_powi_steps, poly_ii_powi_steps, poly_j_powi_steps, poly_jj_powi_steps]
  refine ⟨congrArg _ (stepsFold_eq _ _ _ _ rfl), congrArg _ (stepsFold_eq _ _ _ _ rfl),
    congrArg _ (stepsFold_eq _ _ _ _ rfl), stepsFold_eq _ _ _ _ rfl, stepsFold_eq _ _ _ _ rfl⟩

/-! ### The exception: subregion 3l

The table of subregion 3l has 43 rows and the step list stops at 42, so the last
coefficient is never added. -/

/-- The 3l step list visits rows 0..41 of a table with 43 rows. -/
theorem C09_3l_visited :
    visited pT2v_3l_steps = List.range 42 ∧ (pT2v_3l_IJn (F := F)).length = 43 := ⟨rfl, rfl⟩

/-- It is still memory safe. -/
theorem C09_3l_no_panic {σ : Type} (body : σ → Int × Int × F → σ) (init : σ) :
    (stepsFold? body init pT2v_3l_IJn pT2v_3l_steps).isSome := by
  rw [stepsFold?_visited, foldlM_checked body ((0, 0, 0.0) : Int × Int × F)]
  · rfl
  · rw [(C09_3l_visited (F := F)).1, (C09_3l_visited (F := F)).2]; intro k hk; rw [List.mem_range] at hk; omega

/-- In exact arithmetic, what is missing is the term of the last row. -/
theorem C09_3l_missing_term (x y : ℝ) :
    poly_powi x y pT2v_3l_IJn =
      poly_powi_steps x y pT2v_3l_IJn pT2v_3l_steps + 6.42794932373694e32 * x ^ 14 * y ^ 10 := by
  have hs : poly_powi_steps x y pT2v_3l_IJn pT2v_3l_steps = poly_powi x y (pT2v_3l_IJn.take 42) := by
    unfold poly_powi_steps
    rw [stepsFold_visited]
    rfl
  have hl : (pT2v_3l_IJn : List (Int × Int × ℝ)) = pT2v_3l_IJn.take 42 ++ [(14, 10, 6.42794932373694e32)] := rfl
  rw [hs]
  conv_lhs => rw [hl]
  unfold poly_powi
  rw [List.foldl_append, List.foldl_cons, List.foldl_nil]
  rfl

/-- The defect is observable: at p = 23 MPa, T = 646 K (the published check point of 3l) the
volume returned by the subregion equation is not the volume of the published 43-term equation. -/
theorem C09_3l_wrong_volume :
    pT2v_3l (23 : ℝ) 646 ≠ pT2v_sum (23 : ℝ) (646 : ℝ) (pT2v_3l_IJn : List (Int × Int × ℝ))
      ({ PS := 24.0, TS := 650.0, VS := 0.0026, a := 0.908, b := 0.989, c := 1.0, d := 1.0, e := 4.0 } : Para ℝ) := by
  unfold pT2v_3l pT2v_sum_steps pT2v_sum
  simp only [real_powf, show (1.0 : ℝ) = 1 by norm_num, Real.rpow_one, show (4.0 : ℝ) = ((4 : ℕ) : ℝ) by norm_num,
    Real.rpow_natCast]
  rw [C09_3l_missing_term]
  set S := poly_powi_steps ((23 : ℝ) / 24.0 - 0.908) (646 / 650.0 - 0.989) pT2v_3l_IJn pT2v_3l_steps with hS
  have hpos : 0 < S := by
    rw [hS]
    simp only [poly_powi_steps, stepsFold_visited, (C09_3l_visited (F := ℝ)).1]
    simp only [List.range, List.range.loop, List.foldl_cons, List.foldl_nil, pT2v_3l_IJn, List.getD_cons_zero,
      List.getD_cons_succ, real_powi]
    norm_num
  have hc : (0 : ℝ) < 6.42794932373694e32 * ((23 : ℝ) / 24.0 - 0.908) ^ 14 * (646 / 650.0 - 0.989) ^ 10 := by
    norm_num
  intro h
  have h4 := mul_right_cancel₀ (by norm_num) h
  have := pow_lt_pow_left₀ (lt_add_of_pos_right S hc) hpos.le (n := 4) (by norm_num)
  linarith

end If97
