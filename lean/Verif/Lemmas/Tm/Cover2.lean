import Verif.Lemmas.Tm.Chk2

/-! The polynomials lie outside region 2 (generated subdivisions, checked in the kernel). -/

namespace If97.Tm
set_option maxRecDepth 100000

theorem curA0 : Good (fun β _ => CurS β (q1.val β)) 92800 1 407200 2000000 1 2 :=
  okCurS q1 (.x (.x .a .a) .a) (by decide +kernel)
theorem curA1 : Good (fun β _ => CurS β (q2.val β)) 150000 1 650000 2000000 1 2 :=
  okCurS q2 (.x .a .a) (by decide +kernel)
theorem curA2 : Good (fun β _ => CurS β (q3.val β)) 200000 1 1000000 2000000 1 2 :=
  okCurS q3 (.x .a .a) (by decide +kernel)
theorem curA3 : Good (fun β _ => CurS β (q4.val β)) 250000 1 1450000 2000000 1 2 :=
  okCurS q4 (.a) (by decide +kernel)
theorem curA4 : Good (fun β _ => CurS β (q5.val β)) 250000 1 1950000 2000000 1 2 :=
  okCurS q5 (.a) (by decide +kernel)
theorem curA5 : Good (fun β _ => CurS β (q6.val β)) 314220 1 2514220 2000000 1 2 :=
  okCurS q6 (.a) (by decide +kernel)
theorem curU0 : Good (fun β _ => CurS β (q7.val β)) 185800 1 3014200 2000000 1 2 :=
  okCurS q7 (.a) (by decide +kernel)
theorem curU2 : Good (fun β _ => CurS β (q9.val β)) 200000 1 3400000 2000000 1 2 :=
  okCurS q9 (.a) (by decide +kernel)
theorem curU4 : Good (fun β _ => CurS β (q11.val β)) 216300 1 3816300 2000000 1 2 :=
  okCurS q11 (.x .a (.x .a (.x .a (.x .a .a)))) (by decide +kernel)
theorem curU6 : Good (fun β _ => CurB β (q13.val β)) 283700 1 4316300 2000000 1 2 :=
  okCurB q13 (.x (.x (.x .a .a) .a) (.x .a .a)) (by decide +kernel)
theorem curU8 : Good (fun β _ => CurB β (q15.val β)) 400000 1 5000000 2000000 1 2 :=
  okCurB q15 (.x .a .a) (by decide +kernel)
theorem curU10 : Good (fun β _ => CurB β (q17.val β)) 462278 1 5862278 2000000 1 2 :=
  okCurB q17 (.x .a (.x .a (.x .a (.x .a .a)))) (by decide +kernel)
theorem curT : Good (fun β _ => CurT β (q13.val β)) 40 1 4032640 2000000 1 2 :=
  okCurT q13 (.a) (by decide +kernel)

end If97.Tm

/-! The fans of region 2 cover the region. -/

namespace If97.Tm

theorem fanUse {R : ℝ → ℝ → Prop} {A B : Q6} {lo hi D : ℕ} (hD : 0 < D) (hl : lo ≤ hi)
    (h : Good (Rf R A B) (hi - lo) 1 (hi + lo) (2 * D) 1 2) {β τ : ℝ} (h1 : (lo : ℝ) / D ≤ β) (h2 : β ≤ (hi : ℝ) / D)
    (h3 : A.val β ≤ τ) (h4 : τ ≤ B.val β) : R β τ := by
  obtain ⟨s, s0, s1, rfl⟩ := fan_cover h3 h4
  have hD' : (0 : ℝ) < D := by exact_mod_cast hD
  rw [div_le_iff₀ hD'] at h1
  rw [le_div_iff₀ hD'] at h2
  refine h β s ?_ ?_
  · rw [abs_le]; push_cast [Nat.cast_sub hl]; constructor <;> linarith
  · rw [abs_le]; push_cast; constructor <;> linarith

theorem curUse {C : ℝ → ℝ → Prop} {q : Q6} {lo hi D : ℕ} (hD : 0 < D) (hl : lo ≤ hi)
    (h : Good (fun β _ => C β (q.val β)) (hi - lo) 1 (hi + lo) (2 * D) 1 2) {β : ℝ} (h1 : (lo : ℝ) / D ≤ β)
    (h2 : β ≤ (hi : ℝ) / D) : C β (q.val β) := by
  have hD' : (0 : ℝ) < D := by exact_mod_cast hD
  rw [div_le_iff₀ hD'] at h1
  rw [le_div_iff₀ hD'] at h2
  refine h β (1 / 2) ?_ ?_
  · rw [abs_le]; push_cast [Nat.cast_sub hl]; constructor <;> linarith
  · norm_num

theorem CurS.le {β τ q : ℝ} (h : CurS β q) (hd : Dom2 β τ) (h0 : 0 < τ) : τ ≤ q := by
  obtain ⟨q0, a, b, c⟩ := h
  by_contra hlt
  have hT : 540 / τ < 540 / q := div_lt_div_of_pos_left (by norm_num) q0 (not_le.1 hlt)
  have e := hd.2.1 (by norm_num at *; linarith)
  have m : Sat.psat (540 / τ) < Sat.psat (540 / q) := Sat.psat_strictMonoOn ⟨hd.1, by norm_num at *; linarith⟩
    ⟨a.le, by norm_num at *; linarith⟩ hT
  linarith

theorem CurB.le {β τ q : ℝ} (h : CurB β q) (hs : β ≤ 2.01634 → CurT β q) (hβ : 0 ≤ β) (hd : Dom2 β τ) (h0 : 0 < τ) :
    τ ≤ q := by
  obtain ⟨q0, b, c⟩ := h
  by_contra hlt
  have hT : 540 / τ < 540 / q := div_lt_div_of_pos_left (by norm_num) q0 (not_le.1 hlt)
  rcases le_total (540 / τ) 623.15 with h1 | h1
  · have e := hd.2.1 h1
    have m := Sat.psat_strictMonoOn.monotoneOn (a := 540 / τ) (b := 623.15) ⟨hd.1, by norm_num at *; linarith⟩
      (by norm_num) h1
    have hβ' : β ≤ 2.01634 := by
      by_contra hb
      have : (2.01634 : ℝ) ^ 4 < β ^ 4 := pow_lt_pow_left₀ (not_le.1 hb) (by norm_num) (by norm_num)
      have := Sat.psat_623.2
      norm_num at *; linarith
    obtain ⟨-, k1, k2, k3⟩ := hs hβ'
    have m : Sat.psat (540 / τ) < Sat.psat (540 / q) := Sat.psat_strictMonoOn ⟨hd.1, by norm_num at *; linarith⟩
      ⟨k1.le, by norm_num at *; linarith⟩ hT
    linarith
  · have e := hd.2.2 h1 (by norm_num at *; linarith)
    have m : Domain.pB23 (540 / τ) ≤ Domain.pB23 (540 / q) := by
      generalize 540 / τ = x at *
      generalize 540 / q = y at *
      unfold Domain.pB23
      norm_num at *
      nlinarith
    linarith

theorem q0_val (β : ℝ) : q0.val β = 54000 / 107315 := by
  norm_num [Q6.val, q0, Co.val]

variable {R : ℝ → ℝ → Prop} {β τ : ℝ}

/-- up to 4 MPa -/
theorem cover2a (g0 : Good (Rf R q0 q1) 92800 1 407200 2000000 1 2) (g1 : Good (Rf R q0 q2) 150000 1 650000 2000000 1 2)
    (g2 : Good (Rf R q0 q3) 200000 1 1000000 2000000 1 2) (g3 : Good (Rf R q0 q4) 250000 1 1450000 2000000 1 2)
    (g4 : Good (Rf R q0 q5) 250000 1 1950000 2000000 1 2) (g5 : Good (Rf R q0 q6) 314220 1 2514220 2000000 1 2)
    (hd : Dom2 β τ) (h0 : 0 < τ) (hL : 54000 / 107315 ≤ τ) (h1 : 0.1572 ≤ β) (h2 : β ≤ 1.41422) : R β τ := by
  rw [← q0_val β] at hL
  norm_num only at h1 h2
  rcases le_total β (250000 / 1000000) with k | k
  · exact fanUse (lo := 157200) (hi := 250000) (D := 1000000) (by decide) (by decide) g0 (by norm_num; linarith) (by norm_num; linarith) hL
      ((curUse (lo := 157200) (hi := 250000) (D := 1000000) (by decide) (by decide) curA0 (by norm_num; linarith) (by norm_num; linarith)).le hd h0)
  rcases le_total β (400000 / 1000000) with k' | k'
  · exact fanUse (lo := 250000) (hi := 400000) (D := 1000000) (by decide) (by decide) g1 (by norm_num; linarith) (by norm_num; linarith) hL
      ((curUse (lo := 250000) (hi := 400000) (D := 1000000) (by decide) (by decide) curA1 (by norm_num; linarith) (by norm_num; linarith)).le hd h0)
  rcases le_total β (600000 / 1000000) with k | k
  · exact fanUse (lo := 400000) (hi := 600000) (D := 1000000) (by decide) (by decide) g2 (by norm_num; linarith) (by norm_num; linarith) hL
      ((curUse (lo := 400000) (hi := 600000) (D := 1000000) (by decide) (by decide) curA2 (by norm_num; linarith) (by norm_num; linarith)).le hd h0)
  rcases le_total β (850000 / 1000000) with k' | k'
  · exact fanUse (lo := 600000) (hi := 850000) (D := 1000000) (by decide) (by decide) g3 (by norm_num; linarith) (by norm_num; linarith) hL
      ((curUse (lo := 600000) (hi := 850000) (D := 1000000) (by decide) (by decide) curA3 (by norm_num; linarith) (by norm_num; linarith)).le hd h0)
  rcases le_total β (1100000 / 1000000) with k | k
  · exact fanUse (lo := 850000) (hi := 1100000) (D := 1000000) (by decide) (by decide) g4 (by norm_num; linarith) (by norm_num; linarith) hL
      ((curUse (lo := 850000) (hi := 1100000) (D := 1000000) (by decide) (by decide) curA4 (by norm_num; linarith) (by norm_num; linarith)).le hd h0)
  · exact fanUse (lo := 1100000) (hi := 1414220) (D := 1000000) (by decide) (by decide) g5 (by norm_num; linarith) (by norm_num; linarith) hL
      ((curUse (lo := 1100000) (hi := 1414220) (D := 1000000) (by decide) (by decide) curA5 (by norm_num; linarith) (by norm_num; linarith)).le hd h0)

/-- above 4 MPa -/
theorem cover2u (g0 : Good (Rf R q0 q7) 185800 1 3014200 2000000 1 2)
    (g1 : Good (Rf R q0 q8) 200000 1 3400000 2000000 1 2) (g2 : Good (Rf R q8 q9) 200000 1 3400000 2000000 1 2)
    (g3 : Good (Rf R q0 q10) 216300 1 3816300 2000000 1 2) (g4 : Good (Rf R q10 q11) 216300 1 3816300 2000000 1 2)
    (g5 : Good (Rf R q0 q12) 283700 1 4316300 2000000 1 2) (g6 : Good (Rf R q12 q13) 283700 1 4316300 2000000 1 2)
    (g7 : Good (Rf R q0 q14) 400000 1 5000000 2000000 1 2) (g8 : Good (Rf R q14 q15) 400000 1 5000000 2000000 1 2)
    (g9 : Good (Rf R q0 q16) 462278 1 5862278 2000000 1 2) (g10 : Good (Rf R q16 q17) 462278 1 5862278 2000000 1 2)
    (hd : Dom2 β τ) (h0 : 0 < τ) (hL : 54000 / 107315 ≤ τ) (h1 : 1.4142 ≤ β) (h2 : β ≤ 3.162278) : R β τ := by
  rw [← q0_val β] at hL
  norm_num only at h1 h2
  rcases le_total β (1600000 / 1000000) with k | k
  · exact fanUse (lo := 1414200) (hi := 1600000) (D := 1000000) (by decide) (by decide) g0 (by norm_num; linarith) (by norm_num; linarith) hL
      ((curUse (lo := 1414200) (hi := 1600000) (D := 1000000) (by decide) (by decide) curU0 (by norm_num; linarith) (by norm_num; linarith)).le hd h0)
  rcases le_total β (1800000 / 1000000) with k' | k'
  · have u := (curUse (lo := 1600000) (hi := 1800000) (D := 1000000) (by decide) (by decide) curU2 (by norm_num; linarith) (by norm_num; linarith)).le hd h0
    rcases le_total τ (q8.val β) with m | m
    · exact fanUse (lo := 1600000) (hi := 1800000) (D := 1000000) (by decide) (by decide) g1 (by norm_num; linarith) (by norm_num; linarith) hL m
    · exact fanUse (lo := 1600000) (hi := 1800000) (D := 1000000) (by decide) (by decide) g2 (by norm_num; linarith) (by norm_num; linarith) m u
  rcases le_total β (2016300 / 1000000) with k | k
  · have u := (curUse (lo := 1800000) (hi := 2016300) (D := 1000000) (by decide) (by decide) curU4 (by norm_num; linarith) (by norm_num; linarith)).le hd h0
    rcases le_total τ (q10.val β) with m | m
    · exact fanUse (lo := 1800000) (hi := 2016300) (D := 1000000) (by decide) (by decide) g3 (by norm_num; linarith) (by norm_num; linarith) hL m
    · exact fanUse (lo := 1800000) (hi := 2016300) (D := 1000000) (by decide) (by decide) g4 (by norm_num; linarith) (by norm_num; linarith) m u
  rcases le_total β (2300000 / 1000000) with k' | k'
  · have u := (curUse (lo := 2016300) (hi := 2300000) (D := 1000000) (by decide) (by decide) curU6 (by norm_num; linarith) (by norm_num; linarith)).le
      (fun hb => curUse (lo := 2016300) (hi := 2016340) (D := 1000000) (by decide) (by decide) curT (by norm_num; linarith) (by norm_num at *; linarith))
      (by linarith) hd h0
    rcases le_total τ (q12.val β) with m | m
    · exact fanUse (lo := 2016300) (hi := 2300000) (D := 1000000) (by decide) (by decide) g5 (by norm_num; linarith) (by norm_num; linarith) hL m
    · exact fanUse (lo := 2016300) (hi := 2300000) (D := 1000000) (by decide) (by decide) g6 (by norm_num; linarith) (by norm_num; linarith) m u
  rcases le_total β (2700000 / 1000000) with k | k
  · have u := (curUse (lo := 2300000) (hi := 2700000) (D := 1000000) (by decide) (by decide) curU8 (by norm_num; linarith) (by norm_num; linarith)).le
      (fun hb => absurd hb (by norm_num at *; linarith)) (by linarith) hd h0
    rcases le_total τ (q14.val β) with m | m
    · exact fanUse (lo := 2300000) (hi := 2700000) (D := 1000000) (by decide) (by decide) g7 (by norm_num; linarith) (by norm_num; linarith) hL m
    · exact fanUse (lo := 2300000) (hi := 2700000) (D := 1000000) (by decide) (by decide) g8 (by norm_num; linarith) (by norm_num; linarith) m u
  · have u := (curUse (lo := 2700000) (hi := 3162278) (D := 1000000) (by decide) (by decide) curU10 (by norm_num; linarith) (by norm_num; linarith)).le
      (fun hb => absurd hb (by norm_num at *; linarith)) (by linarith) hd h0
    rcases le_total τ (q16.val β) with m | m
    · exact fanUse (lo := 2700000) (hi := 3162278) (D := 1000000) (by decide) (by decide) g9 (by norm_num; linarith) (by norm_num; linarith) hL m
    · exact fanUse (lo := 2700000) (hi := 3162278) (D := 1000000) (by decide) (by decide) g10 (by norm_num; linarith) (by norm_num; linarith) m u

/-! ### the states of region 2 -/

/-- the coordinates of a state of region 2 -/
theorem coords2 {p T : ℝ} (h : InRange 2 p T) (hp : 0.000611212677444 ≤ p) :
    ∃ β τ, 0.1572 ≤ β ∧ β ≤ 3.162278 ∧ 0 < τ ∧ 54000 / 107315 ≤ τ ∧ Dom2 β τ ∧ β ^ 4 = p ∧ 540 / τ = T ∧ τ = 540 / T ∧
      (p ≤ 4 → β ≤ 1.41422) ∧ (4 ≤ p → 1.4142 ≤ β) := by
  have hT := h.T_pos
  have h0 := h.p_pos
  rcases h with h | ⟨-, -, a, b, c, d, e⟩ | h
  · exact absurd h.1 (by decide)
  · have e4 : Real.sqrt (Real.sqrt p) ^ 4 = p := by
      rw [show (4 : ℕ) = 2 * 2 from rfl, pow_mul, Real.sq_sqrt (Real.sqrt_nonneg _), Real.sq_sqrt h0.le]
    have hb0 := Real.sqrt_nonneg (Real.sqrt p)
    generalize Real.sqrt (Real.sqrt p) = β at *
    have et : 540 / (540 / T) = T := div_div_cancel₀ (by norm_num)
    have up : ∀ x : ℝ, 0 ≤ x → p ≤ x ^ 4 → β ≤ x := fun x hx hpx =>
      (pow_le_pow_iff_left₀ hb0 hx (n := 4) (by norm_num)).1 (e4 ▸ hpx)
    have lo : ∀ x : ℝ, 0 ≤ x → x ^ 4 ≤ p → x ≤ β := fun x hx hpx =>
      (pow_le_pow_iff_left₀ hx hb0 (n := 4) (by norm_num)).1 (e4.symm ▸ hpx)
    refine ⟨β, 540 / T, ?_, ?_, by positivity, ?_, ⟨?_, ?_, ?_⟩, e4, et, rfl, fun k => ?_, fun k => ?_⟩
    · exact lo _ (by norm_num) (by norm_num at *; linarith)
    · exact up _ (by norm_num) (by norm_num at *; linarith)
    · rw [div_le_div_iff₀ (by norm_num) hT]; norm_num at *; linarith
    · rw [et]; norm_num at *; linarith
    · rw [et, e4]; exact d
    · rw [et, e4]; intro k1 k2
      rcases eq_or_lt_of_le k1 with k1 | k1
      · have := d k1.symm.le
        rw [← k1] at this ⊢
        have m := Sat.psat_623.2
        unfold Domain.pB23
        norm_num at *; linarith
      · exact e k1 k2
    · exact up _ (by norm_num) (by norm_num at *; linarith)
    · exact lo _ (by norm_num) (by norm_num at *; linarith)
  · exact absurd h.1 (by decide)

end If97.Tm

/-! The upper part of region 2 (p ≥ 4 MPa), with any way of covering each of its six fans. -/

namespace If97.Tm

/-- a claim about the states with β between lo and hi (in millionths), between the isotherm 1073.15 K and the curve q -/
def Fan (R : ℝ → ℝ → Prop) (lo hi : ℕ) (q : Q6) : Prop :=
  ∀ β τ : ℝ, (lo : ℝ) / (1000000 : ℕ) ≤ β → β ≤ (hi : ℝ) / (1000000 : ℕ) → q0.val β ≤ τ → τ ≤ q.val β → R β τ

variable {R : ℝ → ℝ → Prop}

theorem Fan.one {lo hi : ℕ} {q : Q6} (hl : lo ≤ hi) (h : Good (Rf R q0 q) (hi - lo) 1 (hi + lo) (2 * 1000000) 1 2) :
    Fan R lo hi q := fun _ _ h1 h2 h3 h4 => fanUse (by decide) hl h h1 h2 h3 h4

theorem Fan.two {lo hi : ℕ} {q : Q6} (m : Q6) (hl : lo ≤ hi) (h : Good (Rf R q0 m) (hi - lo) 1 (hi + lo) (2 * 1000000) 1 2)
    (h' : Good (Rf R m q) (hi - lo) 1 (hi + lo) (2 * 1000000) 1 2) : Fan R lo hi q := by
  intro β τ h1 h2 h3 h4
  rcases le_total τ (m.val β) with k | k
  · exact fanUse (by decide) hl h h1 h2 h3 k
  · exact fanUse (by decide) hl h' h1 h2 k h4

theorem cover2g {β τ : ℝ} (f0 : Fan R 1414200 1600000 q7) (f1 : Fan R 1600000 1800000 q9) (f2 : Fan R 1800000 2016300 q11)
    (f3 : Fan R 2016300 2300000 q13) (f4 : Fan R 2300000 2700000 q15) (f5 : Fan R 2700000 3162278 q17)
    (hd : Dom2 β τ) (h0 : 0 < τ) (hL : 54000 / 107315 ≤ τ) (h1 : 1.4142 ≤ β) (h2 : β ≤ 3.162278) : R β τ := by
  rw [← q0_val β] at hL
  norm_num only at h1 h2
  rcases le_total β (1600000 / 1000000) with k | k
  · exact f0 _ _ (by norm_num; linarith) (by norm_num; linarith) hL
      ((curUse (lo := 1414200) (hi := 1600000) (D := 1000000) (by decide) (by decide) curU0 (by norm_num; linarith) (by norm_num; linarith)).le hd h0)
  rcases le_total β (1800000 / 1000000) with k' | k'
  · exact f1 _ _ (by norm_num; linarith) (by norm_num; linarith) hL
      ((curUse (lo := 1600000) (hi := 1800000) (D := 1000000) (by decide) (by decide) curU2 (by norm_num; linarith) (by norm_num; linarith)).le hd h0)
  rcases le_total β (2016300 / 1000000) with k | k
  · exact f2 _ _ (by norm_num; linarith) (by norm_num; linarith) hL
      ((curUse (lo := 1800000) (hi := 2016300) (D := 1000000) (by decide) (by decide) curU4 (by norm_num; linarith) (by norm_num; linarith)).le hd h0)
  rcases le_total β (2300000 / 1000000) with k' | k'
  · exact f3 _ _ (by norm_num; linarith) (by norm_num; linarith) hL
      ((curUse (lo := 2016300) (hi := 2300000) (D := 1000000) (by decide) (by decide) curU6 (by norm_num; linarith) (by norm_num; linarith)).le
      (fun hb => curUse (lo := 2016300) (hi := 2016340) (D := 1000000) (by decide) (by decide) curT (by norm_num; linarith) (by norm_num at *; linarith))
      (by linarith) hd h0)
  rcases le_total β (2700000 / 1000000) with k | k
  · exact f4 _ _ (by norm_num; linarith) (by norm_num; linarith) hL
      ((curUse (lo := 2300000) (hi := 2700000) (D := 1000000) (by decide) (by decide) curU8 (by norm_num; linarith) (by norm_num; linarith)).le
      (fun hb => absurd hb (by norm_num at *; linarith)) (by linarith) hd h0)
  · exact f5 _ _ (by norm_num; linarith) (by norm_num; linarith) hL
      ((curUse (lo := 2700000) (hi := 3162278) (D := 1000000) (by decide) (by decide) curU10 (by norm_num; linarith) (by norm_num; linarith)).le
      (fun hb => absurd hb (by norm_num at *; linarith)) (by linarith) hd h0)

end If97.Tm
