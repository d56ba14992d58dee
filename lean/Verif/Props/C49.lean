import Verif.Lemmas.Throttle
import Verif.Props.C02
import Verif.Props.C05

/-!
# C49 Throttling

Exact arithmetic, every state of regions 1 (up to 200 °C), 2 and 5.  The Joule-Thomson coefficient of
steam is positive and that of cold water negative; two states of equal enthalpy in regions 2 or 5 are
ordered the same way in pressure and temperature, in region 1 (up to 200 °C) the opposite way.
The sign of the mixed derivative of the Gibbs energy is decided by interval subdivision.
-/

namespace If97
open Domain Set

private theorem pt0 {r : Int} (hr : GibbsRegion r) {p t : ℝ} (hp : PressureOk p (t + 273.15))
    (ht : TemperatureOk (t + 273.15)) (h : Region p (t + 273.15) r) (hg : ¬ Gap p (t + 273.15)) :
    Fn.pt.call0 p t Doc.idH = some ((Gr r).H p (t + 273.15)) ∧
    Fn.pt.call0 p t Doc.idJtc = some (-(Gr r).Dhdp p (t + 273.15) / (Gr r).Cp p (t + 273.15)) := by
  have hi := inRange_of_region hr hp ht h
  have hd0 := (C05_map_partial p t hp ht hg r).2 h
  have hd : Fn.pt.detect p t = some r := by
    have e : Fn.pt.call0 p t Doc.idR = some ((pT_sub_region p (t + 273.15) : Int) : ℝ) := rfl
    rw [e, Option.some_inj, Int.cast_inj] at hd0
    exact congrArg some hd0
  have h15 : 1 ≤ r ∧ r ≤ 5 := by rcases hr with rfl | rfl | rfl <;> decide
  have key : ∀ o, o = Doc.idH ∨ o = Doc.idJtc → Fn.pt.call0 p t o = some (valPT r o p t) := by
    intro o ho
    rw [← C02_region_consistent Fn.pt p t o r h15 hd]
    rcases ho with rfl | rfl <;> rcases hr with rfl | rfl | rfl <;> rfl
  have hV : (Gr r).V p (t + 273.15) ≠ 0 := hi.stable.1.ne'
  rw [key _ (.inl rfl), key _ (.inr rfl), val_H hr hi.regular, val_Jtc hr hi.regular hV]
  exact ⟨rfl, rfl⟩

/-- Steam: OJTC > 0. -/
theorem C49_steam (r : Int) (hr : r = 2 ∨ r = 5) (p t : ℝ) (hp : PressureOk p (t + 273.15))
    (ht : TemperatureOk (t + 273.15)) (h : Region p (t + 273.15) r) (hg : ¬ Gap p (t + 273.15)) :
    ∃ j, Fn.pt.call0 p t Doc.idJtc = some j ∧ 0 < j := by
  have hr' : GibbsRegion r := by rcases hr with h | h; exacts [.inr (.inl h), .inr (.inr h)]
  have hi := inRange_of_region hr' hp ht h
  refine ⟨_, (pt0 hr' hp ht h hg).2, div_pos (neg_pos.2 (hi.Dhdp_neg ?_)) hi.stable.2.1⟩
  rcases hr with rfl | rfl <;> decide

/-- Water up to 200 °C: OJTC < 0. -/
theorem C49_water (p t : ℝ) (hp : PressureOk p (t + 273.15)) (ht : TemperatureOk (t + 273.15))
    (h : Region p (t + 273.15) 1) (hg : ¬ Gap p (t + 273.15)) (ht2 : t ≤ 200) :
    ∃ j, Fn.pt.call0 p t Doc.idJtc = some j ∧ j < 0 := by
  have hi := inRange_of_region (.inl rfl) hp ht h
  have k := hi.Dhdp_pos (by norm_num at *; linarith)
  refine ⟨_, (pt0 (.inl rfl) hp ht h hg).2, div_neg_of_neg_of_pos (neg_neg_of_pos k) hi.stable.2.1⟩

/-- a region 2 or 5 state stays in range when the pressure falls -/
private theorem lower_p {r : Int} (hr : r = 2 ∨ r = 5) {p q T : ℝ} (h : InRange r p T) (hq : 0 < q) (hqp : q ≤ p) : InRange r q T := by
  rcases h with h | h | h
  · omega
  · obtain ⟨h0, h1, h2, h3, h4, h5, h6⟩ := h
    exact .inr (.inl ⟨h0, hq, h2, h3, hqp.trans h4, fun e => hqp.trans (h5 e), fun e e' => hqp.trans (h6 e e')⟩)
  · obtain ⟨h0, h1, h2, h3, h4⟩ := h
    exact .inr (.inr ⟨h0, hq, hqp.trans h2, h3, h4⟩)

/-- Throttled steam cools: two states of one of the regions 2, 5 with the same enthalpy. -/
theorem C49_steam_throttled (r : Int) (hr : r = 2 ∨ r = 5) (p1 t1 p2 t2 h : ℝ)
    (hp1 : PressureOk p1 (t1 + 273.15)) (ht1 : TemperatureOk (t1 + 273.15)) (hr1 : Region p1 (t1 + 273.15) r)
    (hg1 : ¬ Gap p1 (t1 + 273.15)) (hp2 : PressureOk p2 (t2 + 273.15)) (ht2 : TemperatureOk (t2 + 273.15))
    (hr2 : Region p2 (t2 + 273.15) r) (hg2 : ¬ Gap p2 (t2 + 273.15)) (e1 : Fn.pt.call0 p1 t1 Doc.idH = some h)
    (e2 : Fn.pt.call0 p2 t2 Doc.idH = some h) (hlt : p2 < p1) : t2 < t1 := by
  have hr' : GibbsRegion r := by rcases hr with h | h; exacts [.inr (.inl h), .inr (.inr h)]
  have i1 := inRange_of_region hr' hp1 ht1 hr1
  have i2 := inRange_of_region hr' hp2 ht2 hr2
  rw [(pt0 hr' hp1 ht1 hr1 hg1).1, Option.some_inj] at e1
  rw [(pt0 hr' hp2 ht2 hr2 hg2).1, Option.some_inj] at e2
  have i3 := lower_p hr i1 i2.p_pos hlt.le
  have a := i3.H_lt_p i1 (by rcases hr with rfl | rfl <;> decide) hlt
  by_contra hc
  have := i3.H_le i2 (by linarith)
  linarith

/-- Throttled cold water warms up: two region 1 states with the same enthalpy, the second at most 200 °C. -/
theorem C49_water_throttled (p1 t1 p2 t2 h : ℝ)
    (hp1 : PressureOk p1 (t1 + 273.15)) (ht1 : TemperatureOk (t1 + 273.15)) (hr1 : Region p1 (t1 + 273.15) 1)
    (hg1 : ¬ Gap p1 (t1 + 273.15)) (hp2 : PressureOk p2 (t2 + 273.15)) (ht2 : TemperatureOk (t2 + 273.15))
    (hr2 : Region p2 (t2 + 273.15) 1) (hg2 : ¬ Gap p2 (t2 + 273.15)) (e1 : Fn.pt.call0 p1 t1 Doc.idH = some h)
    (e2 : Fn.pt.call0 p2 t2 Doc.idH = some h) (hlt : p2 < p1) (h200 : t2 ≤ 200) : t1 < t2 := by
  have i1 := inRange_of_region (.inl rfl) hp1 ht1 hr1
  have i2 := inRange_of_region (.inl rfl) hp2 ht2 hr2
  rw [(pt0 (.inl rfl) hp1 ht1 hr1 hg1).1, Option.some_inj] at e1
  rw [(pt0 (.inl rfl) hp2 ht2 hr2 hg2).1, Option.some_inj] at e2
  have i3 : InRange 1 p1 (t2 + 273.15) := by
    rcases i2 with i | i | i
    · obtain ⟨h0, h1, h2, h3, h4, h5⟩ := i
      exact .inl ⟨h0, i1.p_pos, h2, h3, by linarith, hp1.2.1⟩
    all_goals omega
  have a := i2.H_lt_p1 i3 rfl (by norm_num at *; linarith) hlt
  by_contra hc
  have := i3.H_le i1 (by linarith)
  linarith

/-- A concrete state meets the hypotheses: 10 MPa, 1000 °C, region 5. -/
example : ∃ j, Fn.pt.call0 (10 : ℝ) 1000 Doc.idJtc = some j ∧ 0 < j := by
  refine C49_steam 5 (.inr rfl) 10 1000 ⟨by unfold pMin; norm_num, by norm_num, fun _ => by norm_num⟩
    ⟨by norm_num, by norm_num⟩ (.r5 (by norm_num)) ?_
  rintro ⟨e, -⟩
  unfold pMin at e; norm_num at e

end If97
