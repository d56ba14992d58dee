import Verif.Lemmas.Tm.DetBack
import Verif.Props.C19
import Verif.Props.C42

/-!
# C52 Heat capacities and speed of sound

Exact arithmetic, regions 1, 2, 5, every state of the region: the returned OCV is positive and at most the
returned OCP (less than it in steam), and the returned speed of sound OW is positive, so that no square root
of a negative number is taken.  In regions 1 and 2 the identity of C19 then holds without any condition on
the sign of the radicand.

OCV of region 5 is not the cv of the release (C18); the order holds for the returned value all the same.

The determinant γ_ππ γ_ττ - ... is enclosed by verified Taylor models on the whole region (`Lemmas/Tm/`).
-/

namespace If97
open Domain

section
variable {r : Int} {p T : ℝ} (h : InRange r p T) (hp : 0.000611212677444 ≤ p)
include h hp

/-- the radicand of the speed of sound and the difference of the heat capacities -/
private theorem core : 0 < (Gr r).Cv p T ∧ (Gr r).Cv p T ≤ (Gr r).Cp p T ∧
    0 < (Gr r).B p T ^ 2 / (((Gr r).Ts / T) ^ 2 * (Gr r).gtt (p / (Gr r).ps) ((Gr r).Ts / T)) -
      (Gr r).gpp (p / (Gr r).ps) ((Gr r).Ts / T) := by
  have hd := Tm.det_pos h hp
  obtain ⟨-, h2, h3⟩ := h.signs
  have hR := gasR_pos
  have hy : 0 < (Gr r).Ts / T := by
    have hT := h.T_pos
    rcases h.gibbs with rfl | rfl | rfl <;> simp [Gr, G1, G2, G5, idealGibbs] <;> positivity
  unfold Gibbs.Cv Gibbs.Cp Gibbs.B
  unfold Gibbs.det at hd
  generalize (Gr r).gpp (p / (Gr r).ps) ((Gr r).Ts / T) = g at *
  generalize (Gr r).gtt (p / (Gr r).ps) ((Gr r).Ts / T) = f at *
  generalize (Gr r).gp (p / (Gr r).ps) ((Gr r).Ts / T) - (Gr r).Ts / T * (Gr r).gpt (p / (Gr r).ps) ((Gr r).Ts / T) = b at *
  generalize (Gr r).Ts / T = y at *
  have hg : 0 < -g := by linarith
  have hf : 0 < y ^ 2 * -f := mul_pos (by positivity) (by linarith)
  refine ⟨?_, ?_, ?_⟩
  · have e : -gasR * y ^ 2 * f + gasR * b ^ 2 / g = gasR * (-(y ^ 2 * f) * -g - b ^ 2) / -g := by
      have : g ≠ 0 := by linarith
      field_simp; ring
    rw [e]; positivity
  · have : 0 ≤ gasR * b ^ 2 / -g := by positivity
    have e : gasR * b ^ 2 / -g = -(gasR * b ^ 2 / g) := by rw [div_neg]
    linarith
  · have e : b ^ 2 / (y ^ 2 * f) - g = (-(y ^ 2 * f) * -g - b ^ 2) / (y ^ 2 * -f) := by
      have : y ≠ 0 := hy.ne'
      have : f ≠ 0 := by intro h0; rw [h0] at hf; simp at hf
      field_simp; ring
    rw [e]; positivity
end

variable {r : Int} {p t : ℝ} (hr : GibbsRegion r) (hp : PressureOk p (t + 273.15)) (ht : TemperatureOk (t + 273.15))
  (h : Region p (t + 273.15) r)
include hr hp ht h

/-- 0 < OCV ≤ OCP, region given -/
theorem C52_capacities : ∃ cv cp, Fn.pt.call p t Doc.idCv r = some cv ∧ Fn.pt.call p t Doc.idCp r = some cp ∧
    0 < cv ∧ cv ≤ cp ∧ (r ≠ 1 → cv < cp) := by
  have hi := inRange_of_region hr hp ht h
  have hR := gasR_pos
  obtain ⟨c1, c2, -⟩ := core hi hp.1
  have key : r ≠ 5 → (r ≠ 1 → (Gr r).Cv p (t + 273.15) < (Gr r).Cp p (t + 273.15)) := by
    intro _ h1
    have hB := hi.expand fun e => absurd e h1
    obtain ⟨-, h2, -⟩ := hi.signs
    unfold Gibbs.Cv
    have : gasR * (Gr r).B p (t + 273.15) ^ 2 / (Gr r).gpp (p / (Gr r).ps) ((Gr r).Ts / (t + 273.15)) < 0 :=
      div_neg_of_pos_of_neg (by positivity) h2
    linarith
  rcases hr with rfl | rfl | rfl
  · exact ⟨_, _, congrArg some (val_Cv1 hi.regular), congrArg some (val_Cp (.inl rfl) hi.regular), c1, c2, key (by decide)⟩
  · exact ⟨_, _, congrArg some (val_Cv2 hi.regular), congrArg some (val_Cp (.inr (.inl rfl)) hi.regular), c1, c2, key (by decide)⟩
  · refine ⟨_, _, congrArg some (val_Cv5 hi.regular), congrArg some (val_Cp (.inr (.inr rfl)) hi.regular), ?_⟩
    obtain ⟨-, -, d⟩ := Tm.det5_pos hi
    obtain ⟨d1, d2⟩ := d rfl
    obtain ⟨-, h2, -⟩ := hi.signs
    have hp0 := hi.p_pos
    rw [Gr_5] at h2 ⊢
    unfold Gibbs.Cp Gibbs.B
    rw [show G5.ps = 1 from rfl, show G5.Ts = 1000 from rfl, div_one] at *
    generalize G5.gpp p (1000 / (t + 273.15)) = g at *
    generalize G5.gtt p (1000 / (t + 273.15)) = f at *
    generalize G5.gp p (1000 / (t + 273.15)) = a at *
    generalize G5.gpt p (1000 / (t + 273.15)) = b at *
    generalize 1000 / (t + 273.15) = y at *
    have hg : 0 < -(p ^ 2 * g) := by have := mul_neg_of_pos_of_neg (pow_pos hp0 2) h2; linarith
    have e : -gasR * y ^ 2 * f - gasR * (p * (a - y * b)) ^ 2 = gasR * (-(y ^ 2 * f) - (p * a - y * (p * b)) ^ 2) := by ring
    have l : gasR * (-(y ^ 2 * f) - (p * a - y * (p * b)) ^ 2) / -(p ^ 2 * g) < -gasR * y ^ 2 * f := by
      rw [div_lt_iff₀ hg, show -gasR * y ^ 2 * f * -(p ^ 2 * g) = gasR * (-(y ^ 2 * f) * -(p ^ 2 * g)) by ring]
      exact mul_lt_mul_of_pos_left (by linarith) hR
    rw [e]
    exact ⟨by positivity, l.le, fun _ => l⟩

/-- OW > 0, region given -/
theorem C52_sound : ∃ w, Fn.pt.call p t Doc.idW r = some w ∧ 0 < w := by
  have hi := inRange_of_region hr hp ht h
  have hR := gasR_pos
  have hT := hi.T_pos
  obtain ⟨-, -, c⟩ := core hi hp.1
  obtain ⟨h1, -, -⟩ := hi.signs
  rcases hr with rfl | rfl | rfl
  · obtain ⟨X, hX, hw⟩ := V1.Wsq hi.regular
    refine ⟨_, congrArg some hw, mul_pos h1 (Real.sqrt_pos.2 ?_)⟩
    rw [hX]; exact div_pos (by positivity) c
  · exact ⟨_, congrArg some (V2.W hi.regular), Real.sqrt_pos.2 (div_pos (mul_pos (by positivity) (pow_pos h1 2)) c)⟩
  · exact ⟨_, congrArg some (V5.W hi.regular), Real.sqrt_pos.2 (div_pos (mul_pos (by positivity) (pow_pos h1 2)) c)⟩

/-- regions 1 and 2: w² cv κ_T = 10⁶ v cp between the returned values, everywhere on the region -/
theorem C52_identity (h5 : r ≠ 5) : ∃ w v cp cv kt, Fn.pt.call p t Doc.idW r = some w ∧
    Fn.pt.call p t Doc.idV r = some v ∧ Fn.pt.call p t Doc.idCp r = some cp ∧ Fn.pt.call p t Doc.idCv r = some cv ∧
    Fn.pt.call p t Doc.idKt r = some kt ∧ w ^ 2 * (cv * kt) = 1e6 * v * cp := by
  have hi := inRange_of_region hr hp ht h
  obtain ⟨cv, cp, e1, e2, c1, c2, -⟩ := C52_capacities hr hp ht h
  obtain ⟨v0, cp0, k0⟩ := C42_positive r hr p t hp ht h
  have h15 : 1 ≤ r ∧ r ≤ 5 := by rcases hr with rfl | rfl | rfl <;> decide
  have e (o : Int) (ho : o ∈ [Doc.idV, Doc.idCp, Doc.idKt, Doc.idCv, Doc.idW]) :
      Fn.pt.call p t o r = some (valPT r o p t) := by
    rcases hr with rfl | rfl | rfl <;> fin_cases ho <;> rfl
  have ecv : cv = valPT r Doc.idCv p t := by
    have := e Doc.idCv (by simp); rw [e1] at this; exact Option.some_inj.1 this
  rw [ecv] at c1
  refine ⟨_, _, _, _, _, e _ (by simp), e _ (by simp), e _ (by simp), e _ (by simp), e _ (by simp), ?_⟩
  have := C19_regions12_partial r (by rcases hr with rfl | rfl | rfl; exacts [.inl rfl, .inr rfl, absurd rfl h5]) p t
    hi.regular v0.ne' k0.ne' cp0.ne' (by positivity)
  rw [this]
  field_simp

/-- the same with the region detected by `pt` (outside the gap of C05) -/
theorem C52_auto (hg : ¬ Gap p (t + 273.15)) : ∃ cv cp w, Fn.pt.call0 p t Doc.idCv = some cv ∧
    Fn.pt.call0 p t Doc.idCp = some cp ∧ Fn.pt.call0 p t Doc.idW = some w ∧ 0 < cv ∧ cv ≤ cp ∧ (r ≠ 1 → cv < cp) ∧ 0 < w := by
  have hd : Fn.pt.detect p t = some r := by
    have := (C05_map_partial p t hp ht hg r).2 h
    have e : Fn.pt.call0 p t Doc.idR = some ((pT_sub_region p (t + 273.15) : Int) : ℝ) := rfl
    rw [e, Option.some_inj, Int.cast_inj] at this
    exact congrArg some this
  have h15 : 1 ≤ r ∧ r ≤ 5 := by rcases hr with rfl | rfl | rfl <;> decide
  obtain ⟨cv, cp, e1, e2, e3, e4, e5⟩ := C52_capacities hr hp ht h
  obtain ⟨w, f1, f2⟩ := C52_sound hr hp ht h
  rw [C02_region_consistent Fn.pt p t _ r h15 hd] at e1 e2 f1
  exact ⟨cv, cp, w, e1, e2, f1, e3, e4, e5, f2⟩

omit hr hp ht h

/-- A concrete state: 10 MPa, 1000 °C, region 5. -/
example : ∃ w : ℝ, Fn.pt.call (10 : ℝ) 1000 Doc.idW 5 = some w ∧ 0 < w :=
  C52_sound (.inr (.inr rfl)) ⟨by unfold pMin; norm_num, by norm_num, by norm_num⟩ ⟨by norm_num, by norm_num⟩
    (.r5 (by norm_num))

/-- A concrete state: 1 MPa, 700 °C, region 2. -/
example : ∃ cv cp : ℝ, Fn.pt.call (1 : ℝ) 700 Doc.idCv 2 = some cv ∧ Fn.pt.call (1 : ℝ) 700 Doc.idCp 2 = some cp ∧
    0 < cv ∧ cv ≤ cp ∧ ((2 : Int) ≠ 1 → cv < cp) :=
  C52_capacities (.inr (.inl rfl)) ⟨by unfold pMin; norm_num, by norm_num, by norm_num⟩ ⟨by norm_num, by norm_num⟩
    (.r2_hot (by norm_num) (by norm_num))

end If97
