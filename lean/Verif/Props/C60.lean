import Verif.Props.C47

/-!
# C60 Isobars are monotone through boiling

Exact arithmetic, pressures from 0.000611212677445 MPa to 16.5291642526045 MPa (saturation from 0 °C to 350 °C).  Follow an
isobar from 0 °C to 800 °C: liquid by `pt`, then mixtures by `px` from x = 0 to x = 1, then steam by `pt`, no region being
named.  Enthalpy and entropy grow strictly along the whole path, over both jumps of region, so that a pressure together
with an enthalpy (or with an entropy) belongs to at most one state of the path.
-/

namespace If97
open Domain Set TwoPhase

/-- A point of the isobar: liquid of `t` °C, mixture of quality `x`, steam of `t` °C. -/
inductive Boil
  | liquid (t : ℝ)
  | wet (x : ℝ)
  | steam (t : ℝ)

/-- the point exists at pressure p: the published region map, quality in [0,1] -/
def Boil.Ok (p : ℝ) : Boil → Prop
  | .liquid t => PressureOk p (t + 273.15) ∧ TemperatureOk (t + 273.15) ∧ Region p (t + 273.15) 1
  | .wet x => x ∈ Icc (0 : ℝ) 1
  | .steam t => PressureOk p (t + 273.15) ∧ TemperatureOk (t + 273.15) ∧ Region p (t + 273.15) 2

/-- what the API returns for it -/
noncomputable def Boil.out (p : ℝ) (o : Int) : Boil → Option ℝ
  | .liquid t => Fn.pt.call0 p t o
  | .wet x => FnX.px.call p x o
  | .steam t => Fn.pt.call0 p t o

/-- order along the isobar -/
def Boil.Before : Boil → Boil → Prop
  | .liquid t, .liquid t' => t < t'
  | .liquid _, .wet _ => True
  | .liquid _, .steam _ => True
  | .wet _, .liquid _ => False
  | .wet x, .wet x' => x < x'
  | .wet _, .steam _ => True
  | .steam _, .liquid _ => False
  | .steam _, .wet _ => False
  | .steam t, .steam t' => t < t'

private theorem Boil.total (a b : Boil) : a = b ∨ a.Before b ∨ b.Before a := by
  cases a <;> cases b <;> simp only [Boil.Before, Boil.liquid.injEq, Boil.wet.injEq, Boil.steam.injEq, reduceCtorEq,
    or_true, true_or]
  all_goals
    rename_i u w
    rcases lt_trichotomy u w with h | h | h <;> simp only [h, true_or, or_true]

section
variable {p : ℝ} (h1 : 0.000611212677445 ≤ p) (h2 : p ≤ 16.5291642526045)
include h1 h2

omit h2 in
private theorem notGap {T : ℝ} : ¬ Gap p T := fun h => by
  have := h.1; unfold pMin at this; rw [this] at h1; norm_num at h1

private theorem side {T : ℝ} (ht : TemperatureOk T) :
    (Region p T 1 → T < T_saturation p) ∧ (Region p T 2 → T_saturation p < T) := by
  obtain ⟨a, b, c⟩ := sat_low h1 h2
  have m : T_saturation p ∈ Icc (273 : ℝ) 648 := ⟨by norm_num at *; linarith, by norm_num at *; linarith⟩
  have hm := ht.1
  have mem : T ≤ 623.15 → T ∈ Icc (273 : ℝ) 648 := fun a => ⟨by norm_num at *; linarith, by norm_num at *; linarith⟩
  have mem' : T ≤ 623.15 → T ∈ Icc (273.15 : ℝ) 647.096 := fun a => ⟨ht.1, by norm_num at *; linarith⟩
  constructor
  · intro h
    cases h with
    | r1 k ps hs hn =>
      have hle : Sat.psat T ≤ p := (IsSat.eq (mem' k) ps) ▸ hs
      rcases lt_trichotomy T (T_saturation p) with e | e | e
      · exact e
      · exfalso
        refine hn ((nearSat_iff ht.1).2 ⟨by norm_num at *; linarith, ?_⟩)
        rw [e, c, sub_self, abs_zero, zero_div]; norm_num
      · have := Sat.psat_strictMonoOn m (mem k) e
        linarith
  · intro h
    cases h with
    | r2_below_sat k ps hs hn =>
      by_contra hc
      have hlt : p < Sat.psat T := (IsSat.eq (mem' k) ps) ▸ hs
      have := Sat.psat_strictMonoOn.monotoneOn (mem k) m (not_lt.1 hc)
      linarith
    | r2_below_B23 k _ _ _ => linarith
    | r2_hot k _ => norm_num at *; linarith

/-- the value of each point -/
private theorem value {o : Int} (ho : o = Doc.idH ∨ o = Doc.idS) {a : Boil} (ha : a.Ok p) :
    ∃ G : Int → ℝ → ℝ, (G = (fun r T => (Gr r).H p T) ∧ o = Doc.idH ∨ G = (fun r T => (Gr r).S p T) ∧ o = Doc.idS) ∧
    a.out p o = some (match a with
      | .liquid t => G 1 (t + 273.15)
      | .wet x => G 1 (T_saturation p) + x * (G 2 (T_saturation p) - G 1 (T_saturation p))
      | .steam t => G 2 (t + 273.15)) := by
  have h1' : (0.000611212677444 : ℝ) ≤ p := by norm_num at *; linarith
  have h2' : p ≤ 22.064 := by norm_num at *; linarith
  obtain ⟨-, b, c⟩ := sat_low h1 h2
  obtain ⟨-, k2, k3, -, -, -⟩ := inRange_isobar_low h1' h2
  obtain ⟨-, l2, l3, -⟩ := L_low b k2.regular
  obtain ⟨-, v2, v3, -⟩ := V_low b k3.regular
  have wet {x : ℝ} (hx : x ∈ Icc (0 : ℝ) 1) (hm : Mixed o) : FnX.px.call p x o =
      some (L p (T_saturation p) o + x * (V p (T_saturation p) o - L p (T_saturation p) o)) := by
    rw [px_call h1' h2' hx hm.neP hm.neX]
    by_cases e0 : x = 0
    · subst e0; rw [px0_low h1' hm h2]; ring_nf
    by_cases e1 : x = 1
    · subst e1; rw [px1_low h1' hm h2]; ring_nf
    rw [px_mid e0 e1 hm]
  rcases ho with rfl | rfl
  · refine ⟨_, .inl ⟨rfl, rfl⟩, ?_⟩
    cases a with
    | liquid t => exact (pt0 (.inl rfl) ha.1 ha.2.1 ha.2.2 (notGap h1)).2.1
    | steam t => exact (pt0 (.inr (.inl rfl)) ha.1 ha.2.1 ha.2.2 (notGap h1)).2.1
    | wet x =>
      show FnX.px.call p x Doc.idH = _
      rw [wet ha (QualityOf.mixed (.inr (.inl rfl)))]
      simp only [show Doc.idH = OH from rfl, l2, v2, Gr_1, Gr_2]
  · refine ⟨_, .inr ⟨rfl, rfl⟩, ?_⟩
    cases a with
    | liquid t => exact (pt0 (.inl rfl) ha.1 ha.2.1 ha.2.2 (notGap h1)).2.2.1
    | steam t => exact (pt0 (.inr (.inl rfl)) ha.1 ha.2.1 ha.2.2 (notGap h1)).2.2.1
    | wet x =>
      show FnX.px.call p x Doc.idS = _
      rw [wet ha (QualityOf.mixed (.inr (.inr rfl)))]
      simp only [show Doc.idS = OS from rfl, l3, v3, Gr_1, Gr_2]

private theorem grow {o : Int} {G : Int → ℝ → ℝ}
    (hG : G = (fun r T => (Gr r).H p T) ∧ o = Doc.idH ∨ G = (fun r T => (Gr r).S p T) ∧ o = Doc.idS) :
    (∀ {r T T'}, InRange r p T → InRange r p T' → T < T' → G r T < G r T') ∧ G 1 (T_saturation p) < G 2 (T_saturation p) := by
  have h1' : (0.000611212677444 : ℝ) ≤ p := by norm_num at *; linarith
  obtain ⟨-, b, -⟩ := sat_low h1 h2
  obtain ⟨-, k2, k3, -, -, -⟩ := inRange_isobar_low h1' h2
  have a := liquid k2
  have b := vapour k3 b
  rcases hG with ⟨rfl, -⟩ | ⟨rfl, -⟩
  · refine ⟨fun i i' h => i.H_lt i' h, ?_⟩
    simp only [Gr_1, Gr_2]; linarith [a.1, b.1]
  · refine ⟨fun i i' h => i.S_lt i' h, ?_⟩
    simp only [Gr_1, Gr_2]; linarith [a.2.1, b.2.1]

/-- Enthalpy and entropy grow strictly along the isobar, through liquid, mixture and steam. -/
theorem C60_isobar (o : Int) (ho : o = Doc.idH ∨ o = Doc.idS) (a b : Boil) (ha : a.Ok p) (hb : b.Ok p) (hab : a.Before b) :
    ∃ y y', a.out p o = some y ∧ b.out p o = some y' ∧ y < y' := by
  obtain ⟨G, hG, ea⟩ := value h1 h2 ho ha
  obtain ⟨G', hG', eb⟩ := value h1 h2 ho hb
  have e : G = G' := by
    rcases hG with ⟨rfl, rfl⟩ | ⟨rfl, rfl⟩ <;> rcases hG' with ⟨rfl, h⟩ | ⟨rfl, h⟩ <;>
      first | rfl | exact absurd h (by decide)
  subst e
  refine ⟨_, _, ea, eb, ?_⟩
  have h1' : (0.000611212677444 : ℝ) ≤ p := by norm_num at *; linarith
  obtain ⟨-, k2, k3, -, -, -⟩ := inRange_isobar_low h1' h2
  obtain ⟨g, j⟩ := grow h1 h2 hG
  have j' := sub_pos.2 j
  have inr {r : Int} (hr : GibbsRegion r) {t : ℝ}
      (h : PressureOk p (t + 273.15) ∧ TemperatureOk (t + 273.15) ∧ Region p (t + 273.15) r) : InRange r p (t + 273.15) :=
    inRange_of_region hr h.1 h.2.1 h.2.2
  have lo {t : ℝ} (h : PressureOk p (t + 273.15) ∧ TemperatureOk (t + 273.15) ∧ Region p (t + 273.15) 1) :
      G 1 (t + 273.15) < G 1 (T_saturation p) := g (inr (.inl rfl) h) k2 ((side h1 h2 h.2.1).1 h.2.2)
  have hi {t : ℝ} (h : PressureOk p (t + 273.15) ∧ TemperatureOk (t + 273.15) ∧ Region p (t + 273.15) 2) :
      G 2 (T_saturation p) < G 2 (t + 273.15) := g k3 (inr (.inr (.inl rfl)) h) ((side h1 h2 h.2.1).2 h.2.2)
  cases a with
  | liquid t =>
    cases b with
    | liquid t' => exact g (inr (.inl rfl) ha) (inr (.inl rfl) hb) (add_lt_add_left (show t < t' from hab) _)
    | wet x => have := lo ha; have := mul_nonneg hb.1 j'.le; simp only; linarith
    | steam t' => have := lo ha; have := hi hb; simp only; linarith
  | wet x =>
    cases b with
    | liquid t' => exact hab.elim
    | wet x' => have := mul_lt_mul_of_pos_right (show x < x' from hab) j'; simp only; linarith
    | steam t' =>
      have := hi hb; have := mul_nonneg (sub_nonneg.2 (show x ≤ 1 from ha.2)) j'.le
      simp only; linarith
  | steam t =>
    cases b with
    | liquid t' => exact hab.elim
    | wet x => exact hab.elim
    | steam t' => exact g (inr (.inr (.inl rfl)) ha) (inr (.inr (.inl rfl)) hb) (add_lt_add_left (show t < t' from hab) _)

/-- A pressure and an enthalpy, or a pressure and an entropy, belong to at most one point of the isobar. -/
theorem C60_determined (o : Int) (ho : o = Doc.idH ∨ o = Doc.idS) (a b : Boil) (ha : a.Ok p) (hb : b.Ok p)
    (h : a.out p o = b.out p o) : a = b := by
  rcases a.total b with e | e | e
  · exact e
  · obtain ⟨y, y', ea, eb, lt⟩ := C60_isobar h1 h2 o ho a b ha hb e
    rw [ea, eb, Option.some_inj] at h
    exact absurd h lt.ne
  · obtain ⟨y, y', eb, ea, lt⟩ := C60_isobar h1 h2 o ho b a hb ha e
    rw [ea, eb, Option.some_inj] at h
    exact absurd h lt.ne'

end

/-- 1 MPa: mixture of quality 0.5 before steam of 700 °C, both exist. -/
example : ∃ y y', FnX.px.call (1 : ℝ) 0.5 Doc.idH = some y ∧ Fn.pt.call0 1 700 Doc.idH = some y' ∧ y < y' :=
  C60_isobar (p := 1) (by norm_num) (by norm_num) Doc.idH (.inl rfl) (.wet 0.5) (.steam 700) (by norm_num [Boil.Ok])
    ⟨⟨by unfold pMin; norm_num, by norm_num, fun h => by norm_num at *⟩, ⟨by norm_num, by norm_num⟩,
      .r2_hot (by norm_num) (by norm_num)⟩ trivial

/-- 1 MPa: water of 20 °C before a mixture. -/
example : ∃ y y', Fn.pt.call0 (1 : ℝ) 20 Doc.idS = some y ∧ FnX.px.call (1 : ℝ) 0.7 Doc.idS = some y' ∧ y < y' :=
  have c := cold (p := 1) (t := 20) le_rfl (by norm_num) (by norm_num) (by norm_num)
  C60_isobar (p := 1) (by norm_num) (by norm_num) Doc.idS (.inr rfl) (.liquid 20) (.wet 0.7) ⟨c.1, c.2.1, c.2.2.1⟩
    (by norm_num [Boil.Ok]) trivial

end If97
