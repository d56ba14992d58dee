import Verif.Lemmas.Tm.R3h
import Verif.Lemmas.Tm.Comp.Region3st
import Verif.Lemmas.Tm.Leaf3s
import Verif.Lemmas.Tm.St3_0

/-! The polynomials of the stability conditions of region 3 in the form the Taylor models use. -/

namespace If97.Tm
set_option maxRecDepth 100000

def wSt (I _ : Int) : Int := I * (I + 1)
def wCt (_ J : Int) : Int := -(J * (J - 1))
def wBt (I J : Int) : Int := I * (1 - J)
def flst3 : List (Int × Int × Co) := [(0, 0, ⟨false, 0, 1⟩), (0, 1, ⟨false, 0, 1⟩), (0, 2, ⟨false, 0, 1⟩), (0, 7, ⟨false, 0, 1⟩), (0, 10, ⟨false, 0, 1⟩), (0, 12, ⟨false, 0, 1⟩), (0, 23, ⟨false, 0, 1⟩), (1, 2, ⟨true, 6327157738857, 2500000000000⟩), (1, 6, ⟨true, 11524407806681, 5000000000000⟩), (1, 15, ⟨false, 44260521992159, 25000000000000⟩), (1, 17, ⟨true, 64207765181607, 50000000000000⟩), (2, 0, ⟨false, 115480380560013, 50000000000000⟩), (2, 2, ⟨true, 127822063236309, 25000000000000⟩), (2, 6, ⟨false, 146916844625631, 5000000000000⟩), (2, 7, ⟨true, 18301570354179, 1000000000000⟩), (2, 22, ⟨false, 59130805318731, 250000000000000⟩), (2, 26, ⟨false, 9418806318231, 12500000000000⟩), (3, 0, ⟨true, 8399798909613, 2500000000000⟩), (3, 2, ⟨false, 2084969935419, 125000000000⟩), (3, 4, ⟨true, 6056974507071, 250000000000⟩), (3, 16, ⟨true, 246442911521889, 2500000000000000⟩), (3, 26, ⟨true, 142788107204769, 25000000000000⟩), (4, 0, ⟨false, 87968148947, 100000000000⟩), (4, 2, ⟨true, 44476435428739, 5000000000000⟩), (4, 4, ⟨false, 90572070719733, 5000000000000⟩), (4, 26, ⟨false, 70522450087967, 5000000000000⟩), (5, 1, ⟨false, 8077884469749, 2500000000000⟩), (5, 3, ⟨true, 49370434888431, 5000000000000⟩), (5, 26, ⟨true, 76306593061737, 5000000000000⟩), (6, 0, ⟨true, 58210427291877, 62500000000000⟩), (6, 2, ⟨false, 494868946241733, 125000000000000⟩), (6, 26, ⟨false, 345161847407181, 50000000000000⟩), (7, 2, ⟨true, 23630901422359, 31250000000000⟩), (8, 26, ⟨true, 16688638521531, 15625000000000⟩), (9, 2, ⟨false, 130326645663189, 2500000000000000⟩), (9, 26, ⟨false, 290780142333399, 1000000000000000⟩), (10, 0, ⟨false, 178122566591673, 20000000000000000⟩), (10, 1, ⟨true, 182134477745407, 10000000000000000⟩), (11, 26, ⟨true, 296497733807979, 50000000000000000⟩)]
theorem flst3_eq : flat ex3 ey3 tst3 = flst3 := by decide +kernel
theorem tst3_ok : tbOk tst3 ex3.length ey3.length = true := by decide +kernel
theorem same_st3 : List.Forall₂ (SameW wSt 0 0) flst3 (r3_IJn : List (Int × Int × ℝ)) := by
  unfold flst3 r3_IJn
  repeat' first | exact .nil | refine .cons ⟨by decide, by norm_num [Co.val, wSt]⟩ ?_
def flct3 : List (Int × Int × Co) := [(0, 0, ⟨false, 0, 1⟩), (0, 1, ⟨false, 0, 1⟩), (0, 2, ⟨false, 19216926969679, 1250000000000⟩), (0, 7, ⟨true, 274952451773517, 2500000000000⟩), (0, 10, ⟨false, 12636351516879, 50000000000⟩), (0, 12, ⟨true, 397761199985061, 2500000000000⟩), (0, 23, ⟨false, 10697701820781503, 2500000000000000⟩), (1, 2, ⟨false, 6327157738857, 2500000000000⟩), (1, 6, ⟨false, 34573223420043, 1000000000000⟩), (1, 15, ⟨true, 929470961835339, 5000000000000⟩), (1, 17, ⟨false, 1091532008087319, 6250000000000⟩), (2, 0, ⟨false, 0, 1⟩), (2, 2, ⟨false, 42607354412103, 25000000000000⟩), (2, 6, ⟨true, 146916844625631, 1000000000000⟩), (2, 7, ⟨false, 128110992479253, 1000000000000⟩), (2, 22, ⟨true, 4553072009542287, 250000000000000⟩), (2, 26, ⟨true, 40814827379001, 500000000000⟩), (3, 0, ⟨false, 0, 1⟩), (3, 2, ⟨true, 694989978473, 250000000000⟩), (3, 4, ⟨false, 6056974507071, 250000000000⟩), (3, 16, ⟨false, 246442911521889, 125000000000000⟩), (3, 26, ⟨false, 618748464553999, 2000000000000⟩), (4, 0, ⟨false, 0, 1⟩), (4, 2, ⟨false, 44476435428739, 50000000000000⟩), (4, 4, ⟨true, 271716212159199, 25000000000000⟩), (4, 26, ⟨true, 916791851143571, 2000000000000⟩), (5, 1, ⟨false, 0, 1⟩), (5, 3, ⟨false, 49370434888431, 25000000000000⟩), (5, 26, ⟨false, 330661903267527, 1000000000000⟩), (6, 0, ⟨false, 0, 1⟩), (6, 2, ⟨true, 23565187916273, 125000000000000⟩), (6, 26, ⟨true, 213671619823493, 2000000000000⟩), (7, 2, ⟨false, 3375843060337, 125000000000000⟩), (8, 26, ⟨false, 24105811197767, 2500000000000⟩), (9, 2, ⟨true, 14480738407021, 12500000000000000⟩), (9, 26, ⟨true, 420015761148243, 200000000000000⟩), (10, 0, ⟨false, 0, 1⟩), (10, 1, ⟨false, 0, 1⟩), (11, 26, ⟨false, 116802137560719, 4000000000000000⟩)]
theorem flct3_eq : flat ex3 ey3 tct3 = flct3 := by decide +kernel
theorem tct3_ok : tbOk tct3 ex3.length ey3.length = true := by decide +kernel
theorem same_ct3 : List.Forall₂ (SameW wCt 0 0) flct3 (r3_IJn : List (Int × Int × ℝ)) := by
  unfold flct3 r3_IJn
  repeat' first | exact .nil | refine .cons ⟨by decide, by norm_num [Co.val, wCt]⟩ ?_
def flbt3 : List (Int × Int × Co) := [(0, 0, ⟨false, 0, 1⟩), (0, 1, ⟨false, 0, 1⟩), (0, 2, ⟨false, 0, 1⟩), (0, 7, ⟨false, 0, 1⟩), (0, 10, ⟨false, 0, 1⟩), (0, 12, ⟨false, 0, 1⟩), (0, 23, ⟨false, 0, 1⟩), (1, 2, ⟨false, 6327157738857, 5000000000000⟩), (1, 6, ⟨false, 11524407806681, 2000000000000⟩), (1, 15, ⟨true, 309823653945113, 25000000000000⟩), (1, 17, ⟨false, 64207765181607, 6250000000000⟩), (2, 0, ⟨false, 38493460186671, 50000000000000⟩), (2, 2, ⟨false, 42607354412103, 25000000000000⟩), (2, 6, ⟨true, 48972281541877, 1000000000000⟩), (2, 7, ⟨false, 18301570354179, 500000000000⟩), (2, 22, ⟨true, 413915637231117, 250000000000000⟩), (2, 26, ⟨true, 3139602106077, 500000000000⟩), (3, 0, ⟨true, 8399798909613, 10000000000000⟩), (3, 2, ⟨true, 2084969935419, 500000000000⟩), (3, 4, ⟨false, 18170923521213, 1000000000000⟩), (3, 16, ⟨false, 739328734565667, 2000000000000000⟩), (3, 26, ⟨false, 142788107204769, 4000000000000⟩), (4, 0, ⟨false, 87968148947, 500000000000⟩), (4, 2, ⟨false, 44476435428739, 25000000000000⟩), (4, 4, ⟨true, 271716212159199, 25000000000000⟩), (4, 26, ⟨true, 70522450087967, 1000000000000⟩), (5, 1, ⟨false, 0, 1⟩), (5, 3, ⟨false, 16456811629477, 5000000000000⟩), (5, 26, ⟨false, 25435531020579, 400000000000⟩), (6, 0, ⟨true, 8315775327411, 62500000000000⟩), (6, 2, ⟨true, 70695563748819, 125000000000000⟩), (6, 26, ⟨true, 49308835343883, 2000000000000⟩), (7, 2, ⟨false, 23630901422359, 250000000000000⟩), (8, 26, ⟨false, 1854293169059, 625000000000⟩), (9, 2, ⟨true, 130326645663189, 25000000000000000⟩), (9, 26, ⟨true, 290780142333399, 400000000000000⟩), (10, 0, ⟨false, 16192960599243, 20000000000000000⟩), (10, 1, ⟨false, 0, 1⟩), (11, 26, ⟨false, 98832577935993, 8000000000000000⟩)]
theorem flbt3_eq : flat ex3 ey3 tbt3 = flbt3 := by decide +kernel
theorem tbt3_ok : tbOk tbt3 ex3.length ey3.length = true := by decide +kernel
theorem same_bt3 : List.Forall₂ (SameW wBt 0 0) flbt3 (r3_IJn : List (Int × Int × ℝ)) := by
  unfold flbt3 r3_IJn
  repeat' first | exact .nil | refine .cons ⟨by decide, by norm_num [Co.val, wBt]⟩ ?_

end If97.Tm

/-! Stability conditions of region 3: what `Comp/Region3st.lean` checks. -/

namespace If97.Tm

/-- the three conditions, the last one up to 100 MPa -/
def Stab3 (x y : ℝ) : Prop :=
  0 < 2 * R3.fd x y + x * R3.fdd x y ∧ R3.ftt x y < 0 ∧ (pP x y ≤ 100 → 0 < R3.fd x y - y * R3.fdt x y)

/-- liquid: up to 100 MPa, denser than 322 + 16 u - u²/3, above a minorant of the saturation pressure -/
def InLiqH (x y : ℝ) : Prop :=
  0 < x ∧ pP x y ≤ 100 ∧ 1 + lnv y⁻¹ ≤ x ∧ (2.675 * y⁻¹ ^ 2 - 1.1753 * y⁻¹ + 0.66744) ^ 4 ≤ pP x y

section
variable {x y : ℝ} (hx : x ≠ 0)
include hx

private theorem p1 (I : ℤ) : x ^ I = x * x ^ (I - 1) := by rw [← zpow_one_add₀ hx]; congr 1; ring
private theorem p2 (I : ℤ) : x ^ I = x ^ 2 * x ^ (I - 2) := by
  rw [← zpow_natCast, ← zpow_add₀ hx]; congr 1; push_cast; ring

theorem st3_val : polyV (ex3.map (x ^ ·)) (ey3.map (y ^ ·)) tst3 + n1 = x * (2 * R3.fd x y + x * R3.fdd x y) := by
  have e : polyV (ex3.map (x ^ ·)) (ey3.map (y ^ ·)) tst3 =
      2 * x * poly_i_powi x y r3_IJn + x ^ 2 * poly_ii_powi x y r3_IJn := by
    rw [polyV_eq tst3_ok, flst3_eq, sumT_eqW same_st3, poly_i_powi_sum, poly_ii_powi_sum, ← List.sum_map_mul_left,
      ← List.sum_map_mul_left, ← List.sum_map_add]
    congr 1; apply List.map_congr_left; intro e _
    simp only [wSt, sub_zero]
    have h1 := p1 hx (e.1 - 1)
    rw [p2 hx e.1, h1, show e.1 - 1 - 1 = e.1 - 2 by ring]
    push_cast; ring
  rw [e, R3.fd, R3.fdd]
  generalize (poly_i_powi _ _ _ : ℝ) = a
  generalize (poly_ii_powi _ _ _ : ℝ) = b
  field_simp; ring

theorem bt3_val (hy : y ≠ 0) :
    polyV (ex3.map (x ^ ·)) (ey3.map (y ^ ·)) tbt3 + n1 = x * (R3.fd x y - y * R3.fdt x y) := by
  have e : polyV (ex3.map (x ^ ·)) (ey3.map (y ^ ·)) tbt3 =
      x * poly_i_powi x y r3_IJn + -(x * y) * poly_ij_powi x y r3_IJn := by
    rw [polyV_eq tbt3_ok, flbt3_eq, sumT_eqW same_bt3, poly_i_powi_sum, poly_ij_powi_sum, ← List.sum_map_mul_left,
      ← List.sum_map_mul_left, ← List.sum_map_add]
    congr 1; apply List.map_congr_left; intro e _
    simp only [wBt, sub_zero]
    rw [p1 hx e.1, p1 hy e.2.1]
    push_cast; ring
  rw [e, R3.fd, R3.fdt]
  generalize (poly_i_powi _ _ _ : ℝ) = a
  generalize (poly_ij_powi _ _ _ : ℝ) = b
  field_simp; ring

omit hx in
theorem ct3_val (hy : y ≠ 0) : polyV (ex3.map (x ^ ·)) (ey3.map (y ^ ·)) tct3 = -(y ^ 2) * R3.ftt x y := by
  rw [polyV_eq tct3_ok, flct3_eq, sumT_eqW same_ct3, R3.ftt, poly_jj_powi_sum, ← List.sum_map_mul_left]
  congr 1; apply List.map_congr_left; intro e _
  simp only [wCt, sub_zero]
  rw [p2 hy e.2.1]
  push_cast; ring
end

section
variable {P : Par} (hP : P.Ok) {u v : ℝ} (hu : |u| ≤ 1) (hv : |v| ≤ 1)
include hP hu hv

theorem stab3_sound {d t : TM} {k : List TM → List TM → Bool} {x y : ℝ} (h : stab3 P d t k = true)
    (hd : Enc P u v d x) (ht : Enc P u v t y) (hx : 0 < x) (hy : y ≠ 0) :
    0 < 2 * R3.fd x y + x * R3.fdd x y ∧ R3.ftt x y < 0 ∧ ∃ xs ys, List.Forall₂ (Enc P u v) xs (ex3.map (x ^ ·)) ∧
      List.Forall₂ (Enc P u v) ys (ey3.map (y ^ ·)) ∧ k xs ys = true := by
  obtain ⟨xs, hxs, h⟩ := pows_sound hP hu hv h (.cons hd (.cons (enc_one hP) .nil))
  obtain ⟨ys, hys, h⟩ := pows_sound hP hu hv h (.cons ht (.cons (enc_one hP) .nil))
  have hxs : List.Forall₂ (Enc P u v) xs (ex3.map (x ^ ·)) := by
    rw [← ex3_eq, ← powsV_eq (.inr (by decide)) (by decide)]
    simpa using hxs
  have hys : List.Forall₂ (Enc P u v) ys (ey3.map (y ^ ·)) := by
    rw [← ey3_eq, ← powsV_eq (.inr (by decide)) (by decide)]
    simpa using hys
  obtain ⟨s, hs, h⟩ := poly_sound0 hP hu hv hxs hys h
  obtain ⟨h1, h⟩ := gd_true h
  obtain ⟨w, hw, h1⟩ := lin_sound hP hu hv (.cons hs (.cons (enc_one hP) .nil)) h1
  obtain ⟨c, hc, h⟩ := poly_sound0 hP hu hv hxs hys h
  obtain ⟨h2, h⟩ := gd_true h
  have h1 := pos_sound hP hu hv h1 hw
  have h2 := pos_sound hP hu hv h2 hc
  refine ⟨?_, ?_, xs, ys, hxs, hys, h⟩
  · have e := st3_val (y := y) hx.ne'
    generalize polyV (ex3.map (x ^ ·)) (ey3.map (y ^ ·)) tst3 = z at *
    refine pos_of_mul_pos_right (a := x) ?_ hx.le
    rw [← e, n1]
    norm_num [linV, Co.val] at h1 ⊢; linarith
  · rw [ct3_val hy] at h2
    have : 0 < y ^ 2 := by positivity
    nlinarith

end

section
variable {P : Par} (hP : P.Ok)
include hP

theorem bSt3_ok {R : ℝ → ℝ → Prop} (hR : ∀ x y, 0 < x → 0 < y → Stab3 x y → R x y) :
    BodyOk P (bSt3 P) fun x y => 0 < y → 0 < x → R x y := by
  intro u v hu hv d t x y hd ht h hy hx
  obtain ⟨h1, h2, xs, ys, hxs, hys, h⟩ := stab3_sound hP hu hv h hd ht hx hy.ne'
  refine hR x y hx hy ⟨h1, h2, fun _ => ?_⟩
  obtain ⟨s, hs, h⟩ := poly_sound0 hP hu hv hxs hys h
  obtain ⟨w, hw, h⟩ := lin_sound hP hu hv (.cons hs (.cons (enc_one hP) .nil)) h
  have h := pos_sound hP hu hv h hw
  have e := bt3_val hx.ne' hy.ne'
  generalize polyV (ex3.map (x ^ ·)) (ey3.map (y ^ ·)) tbt3 = z at *
  refine pos_of_mul_pos_right (a := x) ?_ hx.le
  rw [← e, n1]
  norm_num [linV, Co.val] at h ⊢; linarith

theorem bSt3h_ok : BodyOk P (bSt3h P) fun x y => 0 < y → 0 < x → Stab3 x y := by
  intro u v hu hv d t x y hd ht h hy hx
  obtain ⟨h, h'⟩ := gd_true h
  obtain ⟨h1, h2, -⟩ := stab3_sound hP hu hv h hd ht hx hy.ne'
  refine ⟨h1, h2, fun hp => ?_⟩
  exfalso
  obtain ⟨-, xs, ys, c, ti, p, -, -, -, -, hp', h⟩ := st3t_sound hP hu hv h' hd ht hx
  obtain ⟨w, hw, h⟩ := lin_sound hP hu hv (.cons hp' (.cons (enc_one hP) .nil)) h
  have := pos_sound hP hu hv h hw
  norm_num [linV, Co.val] at this; linarith

theorem kLiqH_ok {R : ℝ → ℝ → Prop} : BodyOk P (kLiqH P) fun x y => InLiqH x y → R x y := by
  intro u v hu hv d t x y hd ht h ⟨hx, h1, h2, h3⟩
  exfalso
  obtain ⟨-, xs, ys, c, ti, p, -, -, -, hti, hp, h⟩ := st3t_sound hP hu hv h hd ht hx
  rcases orB_true h with h | h
  · obtain ⟨w, hw, h⟩ := lin_sound hP hu hv (.cons hp (.cons (enc_one hP) .nil)) h
    have := pos_sound hP hu hv h hw
    norm_num [linV, Co.val] at this h1; linarith
  obtain ⟨t2, ht2, h⟩ := mul_sound hP hu hv h hti hti
  rcases orB_true h with h | h
  · obtain ⟨w, hw, h⟩ := lin_sound hP hu hv (.cons ht2 (.cons hti (.cons (enc_one hP) (.cons hd .nil)))) h
    have := pos_sound hP hu hv h hw
    generalize y⁻¹ = z at *
    norm_num [linV, Co.val] at this
    unfold lnv at h2
    norm_num at h2
    linarith
  · obtain ⟨b, hb, h⟩ := lin_sound hP hu hv (.cons ht2 (.cons hti (.cons (enc_one hP) .nil))) h
    obtain ⟨b2, hb2, h⟩ := mul_sound hP hu hv h hb hb
    obtain ⟨b4, hb4, h⟩ := mul_sound hP hu hv h hb2 hb2
    obtain ⟨w, hw, h⟩ := lin_sound hP hu hv (.cons hb4 (.cons hp .nil)) h
    have eb : linV [y⁻¹ * y⁻¹, y⁻¹, 1] [(0, ⟨false, 26750, 10000⟩), (1, ⟨true, 11753, 10000⟩), (2, ⟨false, 66744, 100000⟩)] =
        2.675 * y⁻¹ ^ 2 - 1.1753 * y⁻¹ + 0.66744 := by norm_num [linV, Co.val]; ring
    rw [eb] at hw
    have := pos_sound hP hu hv h hw
    generalize 2.675 * y⁻¹ ^ 2 - 1.1753 * y⁻¹ + 0.66744 = B at *
    norm_num [linV, Co.val] at this
    have e4 : B ^ 4 = B * B * (B * B) := by ring
    linarith

end

def RSt3 (x y : ℝ) : Prop := 0 < y → 0 < x → Stab3 x y
def RSt3q (x y : ℝ) : Prop := 0 < y → InLiqH x y → Stab3 x y
def RSt3v (x y : ℝ) : Prop := 0 < y → InVap x y → Stab3 x y

section
variable {xr yr xc D yc E : ℕ}

theorem okSt3 (t : Tr4) (h : chk xr yr xc D yc E (vSt3 xr yr t) = true) : Good RSt3 xr yr xc D yc E :=
  have b := leafB_ok P64_ok (bSt3_ok P64_ok (R := Stab3) fun _ _ _ _ h => h)
  chk_sound (R := RSt3) b (leafB_ok P64_ok (bSt3h_ok P64_ok)) b b h

theorem okSt3q (t : Tr4) (h : chk xr yr xc D yc E (vSt3q xr yr t) = true) : Good RSt3q xr yr xc D yc E :=
  have b := leafB_ok (R := RSt3q) P64_ok ((bSt3_ok P64_ok (R := Stab3) fun _ _ _ _ h => h).imp fun _ _ g hy k => g hy k.1)
  chk_sound b b b (leafB_ok (R := RSt3q) P64_ok ((kLiqH_ok P64_ok (R := Stab3)).imp fun _ _ g _ => g)) h

theorem okSt3v (t : Tr4) (h : chk xr yr xc D yc E (vSt3v xr yr t) = true) : Good RSt3v xr yr xc D yc E :=
  have b := leafB_ok (R := RSt3v) P64_ok ((bSt3_ok P64_ok (R := Stab3) fun _ _ _ _ h => h).imp fun _ _ g hy k => g hy k.1)
  chk_sound b b b (leafB_ok (R := RSt3v) P64_ok ((kVap_ok P64_ok (R := Stab3)).imp fun _ _ g _ => g)) h

end

end If97.Tm

/-! Stability of region 3: the whole bands (generated). -/

namespace If97.Tm

theorem st3h_root0 : Good RSt3 300000 250303 300000 2000000 1749685 2000000 := okSt3 st3h_t0 st3h_c0
theorem st3h_root1 : Good RSt3 200000 250303 800000 2000000 1749685 2000000 := okSt3 st3h_t1 st3h_c1
theorem st3h_root2 : Good RSt3 300000 250303 1300000 2000000 1749685 2000000 := okSt3 st3h_t2 st3h_c2
theorem st3h_root3 : Good RSt3 400000 250303 2000000 2000000 1749685 2000000 := okSt3 st3h_t3 st3h_c3
theorem st3h_root4 : Good RSt3 500000 250303 2900000 2000000 1749685 2000000 := okSt3 st3h_t4 st3h_c4
theorem st3h_root5 : Good RSt3 800000 250303 4200000 2000000 1749685 2000000 := okSt3 st3h_t5 st3h_c5
theorem st3m_root0 : Good RSt3 745500 1710 745500 2000000 2001690 2000000 := okSt3 st3m_t0 st3m_c0
theorem st3n_root0 : Good RSt3 1258000 1710 3742000 2000000 2001690 2000000 := okSt3 st3n_t0 st3n_c0
theorem st3q_root0 : Good RSt3q 200000 36732 2200000 2000000 2040124 2000000 := okSt3q st3q_t0 st3q_c0
theorem st3q_root1 : Good RSt3q 500000 36732 2900000 2000000 2040124 2000000 := okSt3q st3q_t1 st3q_c1
theorem st3q_root2 : Good RSt3q 800000 36732 4200000 2000000 2040124 2000000 := okSt3q st3q_t2 st3q_c2
theorem st3v_root0 : Good RSt3v 300000 36732 300000 2000000 2040124 2000000 := okSt3v st3v_t0 st3v_c0
theorem st3v_root1 : Good RSt3v 200000 36732 800000 2000000 2040124 2000000 := okSt3v st3v_t1 st3v_c1
theorem st3v_root2 : Good RSt3v 300000 36732 1300000 2000000 2040124 2000000 := okSt3v st3v_t2 st3v_c2
theorem st3v_root3 : Good RSt3v 200000 36732 1800000 2000000 2040124 2000000 := okSt3v st3v_t3 st3v_c3

end If97.Tm
