import Verif.Props.C47

/-!
# C61 Isotherms are monotone through evaporation

Exact arithmetic, temperatures from 0 °C to 350 °C.  Follow an isotherm from 100 MPa downwards: liquid by `pt`, then mixtures
by `tx` from x = 0 to x = 1, then steam by `pt`, no region being named.  The volume grows strictly along the whole path, and
from 5 °C on so does the entropy; so a temperature together with a volume (or, from 5 °C on, with an entropy) belongs to at
most one state of the path.  Below 5 °C the entropy of water is not monotone (`C47_ts_violated` uses such a state).
-/

namespace If97
open Domain Set TwoPhase

/-- A point of the isotherm: liquid at `p` MPa, mixture of quality `x`, steam at `p` MPa. -/
inductive Evap
  | liquid (p : ℝ)
  | wet (x : ℝ)
  | steam (p : ℝ)

/-- the point exists at t °C: the published region map, quality in [0,1]; the very lowest pressure is left out (C05) -/
def Evap.Ok (t : ℝ) : Evap → Prop
  | .liquid p => pMin < p ∧ PressureOk p (t + 273.15) ∧ Region p (t + 273.15) 1
  | .wet x => x ∈ Icc (0 : ℝ) 1
  | .steam p => pMin < p ∧ PressureOk p (t + 273.15) ∧ Region p (t + 273.15) 2

/-- what the API returns for it -/
noncomputable def Evap.out (t : ℝ) (o : Int) : Evap → Option ℝ
  | .liquid p => Fn.pt.call0 p t o
  | .wet x => FnX.tx.call t x o
  | .steam p => Fn.pt.call0 p t o

/-- order along the isotherm, towards lower pressure -/
def Evap.Before : Evap → Evap → Prop
  | .liquid p, .liquid p' => p' < p
  | .liquid _, .wet _ => True
  | .liquid _, .steam _ => True
  | .wet _, .liquid _ => False
  | .wet x, .wet x' => x < x'
  | .wet _, .steam _ => True
  | .steam _, .liquid _ => False
  | .steam _, .wet _ => False
  | .steam p, .steam p' => p' < p

private theorem Evap.total (a b : Evap) : a = b ∨ a.Before b ∨ b.Before a := by
  cases a <;> cases b <;> simp only [Evap.Before, Evap.liquid.injEq, Evap.wet.injEq, Evap.steam.injEq, reduceCtorEq,
    or_true, true_or]
  all_goals
    rename_i u w
    rcases lt_trichotomy u w with h | h | h <;> simp only [h, true_or, or_true]

section
variable {t : ℝ} (h1 : 0 ≤ t) (h2 : t ≤ 350)
include h1 h2

private theorem tOk : TemperatureOk (t + 273.15) := ⟨by norm_num at *; linarith, by norm_num at *; linarith⟩

private theorem side {p : ℝ} :
    (Region p (t + 273.15) 1 → Sat.psat (t + 273.15) < p) ∧ (Region p (t + 273.15) 2 → p < Sat.psat (t + 273.15)) := by
  have hT : t + 273.15 ≤ 623.15 := by norm_num at *; linarith
  have m : t + 273.15 ∈ Icc (273.15 : ℝ) 647.096 := ⟨by linarith, by norm_num at *; linarith⟩
  constructor
  · intro h
    cases h with
    | r1 k ps hs hn =>
      have hle : Sat.psat (t + 273.15) ≤ p := (IsSat.eq m ps) ▸ hs
      refine lt_of_le_of_ne hle fun e => hn ((nearSat_iff m.1).2 ⟨by norm_num at *; linarith, ?_⟩)
      rw [e, sub_self, abs_zero, zero_div]; norm_num
  · intro h
    cases h with
    | r2_below_sat k ps hs hn => exact (IsSat.eq m ps) ▸ hs
    | r2_below_B23 k _ _ _ => linarith
    | r2_hot k _ => norm_num at *; linarith

omit h1 h2 in
private theorem notGap {p : ℝ} (h : pMin < p) : ¬ Gap p (t + 273.15) := fun g => h.ne' g.1

/-- the two quantities -/
private def Is (T : ℝ) (G : Int → ℝ → ℝ) (o : Int) : Prop :=
  G = (fun r p => (Gr r).V p T) ∧ o = Doc.idV ∨ (G = (fun r p => (Gr r).S p T) ∧ o = Doc.idS) ∧ 278.15 ≤ T

/-- the value of each point -/
private theorem value {o : Int} (ho : o = Doc.idV ∨ o = Doc.idS ∧ 5 ≤ t) {a : Evap} (ha : a.Ok t) :
    ∃ G : Int → ℝ → ℝ, Is (t + 273.15) G o ∧
    a.out t o = some (match a with
      | .liquid p => G 1 p
      | .wet x => G 1 (Sat.psat (t + 273.15)) + x * (G 2 (Sat.psat (t + 273.15)) - G 1 (Sat.psat (t + 273.15)))
      | .steam p => G 2 p) := by
  have hT : t + 273.15 ≤ 623.15 := by norm_num at *; linarith
  have hT1 : (273.15 : ℝ) ≤ t + 273.15 := by linarith
  have hs : p_saturation (t + 273.15) = Sat.psat (t + 273.15) := by
    rw [Sat.p_saturation_eq, if_neg]; push Not; norm_num at *; constructor <;> linarith
  obtain ⟨r1, r2⟩ := inRange_sat hT1 hT
  obtain ⟨l1, -, l3, -⟩ := L_low hT r1.regular
  obtain ⟨v1, -, v3, -⟩ := V_low hT r2.regular
  have wet {x : ℝ} (hx : x ∈ Icc (0 : ℝ) 1) (hm : Mixed o) : FnX.tx.call t x o =
      some (L (Sat.psat (t + 273.15)) (t + 273.15) o +
        x * (V (Sat.psat (t + 273.15)) (t + 273.15) o - L (Sat.psat (t + 273.15)) (t + 273.15) o)) := by
    rw [tx_call h1 (by norm_num at *; linarith) hx hm.neT hm.neX]
    by_cases e0 : x = 0
    · subst e0; rw [tx0_low hm hT, hs]; ring_nf
    by_cases e1 : x = 1
    · subst e1; rw [tx1_low hm hT, hs]; ring_nf
    rw [tx_mid e0 e1 hm, hs]
  rcases ho with rfl | ⟨rfl, h5⟩
  · refine ⟨_, .inl ⟨rfl, rfl⟩, ?_⟩
    cases a with
    | liquid p => exact (pt0 (.inl rfl) ha.2.1 (tOk h1 h2) ha.2.2 (notGap ha.1)).2.2.2
    | steam p => exact (pt0 (.inr (.inl rfl)) ha.2.1 (tOk h1 h2) ha.2.2 (notGap ha.1)).2.2.2
    | wet x =>
      show FnX.tx.call t x Doc.idV = _
      rw [wet ha (QualityOf.mixed (.inl rfl))]
      simp only [show Doc.idV = OV from rfl, l1, v1, Gr_1, Gr_2]
  · refine ⟨_, .inr ⟨⟨rfl, rfl⟩, by norm_num at *; linarith⟩, ?_⟩
    cases a with
    | liquid p => exact (pt0 (.inl rfl) ha.2.1 (tOk h1 h2) ha.2.2 (notGap ha.1)).2.2.1
    | steam p => exact (pt0 (.inr (.inl rfl)) ha.2.1 (tOk h1 h2) ha.2.2 (notGap ha.1)).2.2.1
    | wet x =>
      show FnX.tx.call t x Doc.idS = _
      rw [wet ha (QualityOf.mixed (.inr (.inr rfl)))]
      simp only [show Doc.idS = OS from rfl, l3, v3, Gr_1, Gr_2]

private theorem grow {o : Int} {G : Int → ℝ → ℝ} (hG : Is (t + 273.15) G o) :
    (∀ {r p p'}, InRange r p (t + 273.15) → InRange r p' (t + 273.15) → p < p' → G r p' < G r p) ∧
    G 1 (Sat.psat (t + 273.15)) < G 2 (Sat.psat (t + 273.15)) := by
  have hT : t + 273.15 ≤ 623.15 := by norm_num at *; linarith
  obtain ⟨r1, r2⟩ := inRange_sat (by linarith) hT
  have a := liquid r1
  have b := vapour r2 hT
  rcases hG with ⟨rfl, -⟩ | ⟨⟨rfl, -⟩, h5⟩
  · refine ⟨fun i i' h => i.V_lt i' h, ?_⟩
    simp only [Gr_1, Gr_2]; linarith [a.2.2, b.2.2]
  · refine ⟨fun i i' h => i.S_lt_p i' (fun _ => h5) h, ?_⟩
    simp only [Gr_1, Gr_2]; linarith [a.2.1, b.2.1]

/-- Volume, and from 5 °C on entropy, grow strictly along the isotherm, through liquid, mixture and steam. -/
theorem C61_isotherm (o : Int) (ho : o = Doc.idV ∨ o = Doc.idS ∧ 5 ≤ t) (a b : Evap) (ha : a.Ok t) (hb : b.Ok t)
    (hab : a.Before b) : ∃ y y', a.out t o = some y ∧ b.out t o = some y' ∧ y < y' := by
  obtain ⟨G, hG, ea⟩ := value h1 h2 ho ha
  obtain ⟨G', hG', eb⟩ := value h1 h2 ho hb
  have e : G = G' := by
    rcases hG with ⟨rfl, rfl⟩ | ⟨⟨rfl, rfl⟩, -⟩ <;> rcases hG' with ⟨rfl, h⟩ | ⟨⟨rfl, h⟩, -⟩ <;>
      first | rfl | exact absurd h (by decide)
  subst e
  refine ⟨_, _, ea, eb, ?_⟩
  have hT : t + 273.15 ≤ 623.15 := by norm_num at *; linarith
  obtain ⟨k2, k3⟩ := inRange_sat (by linarith) hT
  obtain ⟨g, j⟩ := grow h1 h2 hG
  have j' := sub_pos.2 j
  have inr {r : Int} (hr : GibbsRegion r) {p : ℝ}
      (h : pMin < p ∧ PressureOk p (t + 273.15) ∧ Region p (t + 273.15) r) : InRange r p (t + 273.15) :=
    inRange_of_region hr h.2.1 (tOk h1 h2) h.2.2
  have lo {p : ℝ} (h : pMin < p ∧ PressureOk p (t + 273.15) ∧ Region p (t + 273.15) 1) :
      G 1 p < G 1 (Sat.psat (t + 273.15)) := g k2 (inr (.inl rfl) h) ((side h1 h2).1 h.2.2)
  have hi {p : ℝ} (h : pMin < p ∧ PressureOk p (t + 273.15) ∧ Region p (t + 273.15) 2) :
      G 2 (Sat.psat (t + 273.15)) < G 2 p := g (inr (.inr (.inl rfl)) h) k3 ((side h1 h2).2 h.2.2)
  cases a with
  | liquid p =>
    cases b with
    | liquid p' => exact g (inr (.inl rfl) hb) (inr (.inl rfl) ha) hab
    | wet x => have := lo ha; have := mul_nonneg hb.1 j'.le; simp only; linarith
    | steam p' => have := lo ha; have := hi hb; simp only; linarith
  | wet x =>
    cases b with
    | liquid p' => exact hab.elim
    | wet x' => have := mul_lt_mul_of_pos_right (show x < x' from hab) j'; simp only; linarith
    | steam p' =>
      have := hi hb; have := mul_nonneg (sub_nonneg.2 (show x ≤ 1 from ha.2)) j'.le
      simp only; linarith
  | steam p =>
    cases b with
    | liquid p' => exact hab.elim
    | wet x => exact hab.elim
    | steam p' => exact g (inr (.inr (.inl rfl)) hb) (inr (.inr (.inl rfl)) ha) hab

/-- A temperature and a volume, or from 5 °C on a temperature and an entropy, belong to at most one point of the isotherm. -/
theorem C61_determined (o : Int) (ho : o = Doc.idV ∨ o = Doc.idS ∧ 5 ≤ t) (a b : Evap) (ha : a.Ok t) (hb : b.Ok t)
    (h : a.out t o = b.out t o) : a = b := by
  rcases a.total b with e | e | e
  · exact e
  · obtain ⟨y, y', ea, eb, lt⟩ := C61_isotherm h1 h2 o ho a b ha hb e
    rw [ea, eb, Option.some_inj] at h
    exact absurd h lt.ne
  · obtain ⟨y, y', eb, ea, lt⟩ := C61_isotherm h1 h2 o ho b a hb ha e
    rw [ea, eb, Option.some_inj] at h
    exact absurd h lt.ne'

end

/-- 20 °C: mixtures of quality 0.2 and 0.7 exist, the second is the larger. -/
example : ∃ y y', FnX.tx.call (20 : ℝ) 0.2 Doc.idV = some y ∧ FnX.tx.call (20 : ℝ) 0.7 Doc.idV = some y' ∧ y < y' :=
  C61_isotherm (t := 20) (by norm_num) (by norm_num) Doc.idV (.inl rfl) (.wet 0.2) (.wet 0.7) (by norm_num [Evap.Ok])
    (by norm_num [Evap.Ok]) (by norm_num [Evap.Before])

/-- 20 °C: water at 1 MPa before a mixture, and a mixture of another quality is another state. -/
example : ∃ y y', Fn.pt.call0 (1 : ℝ) 20 Doc.idS = some y ∧ FnX.tx.call (20 : ℝ) 0.7 Doc.idS = some y' ∧ y < y' :=
  have c := cold (p := 1) (t := 20) le_rfl (by norm_num) (by norm_num) (by norm_num)
  C61_isotherm (t := 20) (by norm_num) (by norm_num) Doc.idS (.inr ⟨rfl, by norm_num⟩) (.liquid 1) (.wet 0.7)
    ⟨by unfold pMin; norm_num, c.1, c.2.2.1⟩ (by norm_num [Evap.Ok]) trivial

end If97
