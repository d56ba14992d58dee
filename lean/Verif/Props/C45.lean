import Verif.Props.C34
import Verif.Props.C46
import Verif.Spec.Domain

/-!
# C45 Documented units of temperature

Exact arithmetic.  The temperature returned for OT is in degrees Celsius, in every region and function:

* single-phase regions: it is the t of the one state (p, t) or (t, v) in degrees Celsius to which all outputs
  of the call belong;
* region 4: t + 273.15 satisfies the saturation equation — which is written for kelvin — with the pressure
  of the same call;
* `px`, `hx`, `sx`: the same.
-/

namespace If97
open Set TwoPhase

/-- **Regions 1, 2, 5**: `pt` at the returned temperature gives every other output of the call. -/
theorem C45_gibbs (f : Fn) (r : Int) (hr : GibbsRegion r) (a b : ℝ) :
    ∃ t p, f.call a b Doc.idT r = some t ∧ ∀ o, ¬ f.Given r o → f.call a b o r = Fn.pt.call p t o r := by
  obtain ⟨p, t, h⟩ := C46_gibbs f r hr a b
  exact ⟨t, p, (h _ (f.not_given_T r)).trans rfl, h⟩

/-- **Region 3.** -/
theorem C45_region3 (f : Fn) (a b : ℝ) :
    ∃ t v, f.call a b Doc.idT 3 = some t ∧ ∀ o, ¬ f.Given3 o → f.call a b o 3 = Fn.tv.call t v o 3 := by
  obtain ⟨t, v, h⟩ := C46_region3 f a b
  exact ⟨t, v, (h _ f.not_given3_T).trans rfl, h⟩

private theorem satEq {T : ℝ} (hm : T ∈ Icc (273 : ℝ) 648) : SatEq (Sat.psat T) T := by
  have hm := Sat.th_mem hm
  refine ⟨Sat.bt (Sat.th T), Sat.th T, (Sat.bt_pos _).le, rfl, rfl, ?_⟩
  have := Sat.bt_root hm.1 hm.2
  rw [← this]; unfold Sat.Qf Sat.qA Sat.qB Sat.qC; norm_num; ring

private theorem px_OT (p x : ℝ) : px_reg4 p x OT = T_saturation p - 273.15 := by
  unfold px_reg4
  split
  · rfl
  · split
    · rfl
    · rfl

/-- **Region 4**, functions of a pressure. -/
theorem C45_region4_p (f : Fn) (hf : f = .ph ∨ f = .ps ∨ f = .pv) (p b : ℝ) (h1 : 0.000611212677444 ≤ p) (h2 : p ≤ 22.064) :
    ∃ t, f.call p b Doc.idT 4 = some t ∧ SatEq p (t + 273.15) := by
  obtain ⟨m, e⟩ := sat_T h1 h2
  refine ⟨T_saturation p - 273.15, ?_, ?_⟩
  · rcases hf with rfl | rfl | rfl
    · show some (px_reg4 p _ OT) = _; rw [px_OT]
    · show some (px_reg4 p _ OT) = _; rw [px_OT]
    · show some (px_reg4 p _ OT) = _; rw [px_OT]
  · rw [sub_add_cancel]; nth_rw 1 [← e]; exact satEq m

/-- Region 4, functions of a temperature: the pressure belongs to the input temperature in °C. -/
theorem C45_region4_t (f : Fn) (hf : f = .tv ∨ f = .th ∨ f = .ts) (t b : ℝ) (h1 : 0 ≤ t) (h2 : t ≤ 373.946) :
    ∃ p, f.call t b Doc.idT 4 = some t ∧ f.call t b Doc.idP 4 = some p ∧ SatEq p (t + 273.15) := by
  have e : p_saturation (t + 273.15) = Sat.psat (t + 273.15) := by
    rw [Sat.p_saturation_eq, if_neg]; push Not; norm_num at *; constructor <;> linarith
  refine ⟨Sat.psat (t + 273.15), ?_, ?_, satEq (Sat.mem h1 h2)⟩
  · rcases hf with rfl | rfl | rfl <;> rfl
  · rw [← e]; rcases hf with rfl | rfl | rfl <;> rfl

/-- Region 4, `hs`: whenever the call for the temperature answers with a temperature of the saturation curve,
the pressure of the same inputs belongs to it. -/
theorem C45_region4_hs (h s t : ℝ) (ht : Fn.hs.call h s Doc.idT 4 = some t) (h1 : 0 ≤ t) (h2 : t ≤ 373.946) :
    ∃ p, Fn.hs.call h s Doc.idP 4 = some p ∧ SatEq p (t + 273.15) := by
  have e : p_saturation (t + 273.15) = Sat.psat (t + 273.15) := by
    rw [Sat.p_saturation_eq, if_neg]; push Not; norm_num at *; constructor <;> linarith
  refine ⟨Sat.psat (t + 273.15), ?_, satEq (Sat.mem h1 h2)⟩
  rw [← e]
  have ht' : (hs2T_reg4 h s).bind (fun T => some (T - K)) = some t := ht
  rw [Option.bind_eq_some_iff] at ht'
  obtain ⟨T, hT, e2⟩ := ht'
  show (hs2T_reg4 h s).bind (fun T => some (p_saturation T)) = _
  rw [hT]
  have : T - K = t := Option.some_inj.mp e2
  rw [← this, K, sub_add_cancel]; rfl

/-- **`px`.** -/
theorem C45_px (p x : ℝ) (h1 : 0.000611212677444 ≤ p) (h2 : p ≤ 22.064) (hx : x ∈ Icc (0 : ℝ) 1) :
    ∃ t, FnX.px.call p x Doc.idT = some t ∧ SatEq p (t + 273.15) := by
  obtain ⟨m, e⟩ := sat_T h1 h2
  refine ⟨T_saturation p - 273.15, Sat.px_T h1 h2 hx, ?_⟩
  rw [sub_add_cancel]; nth_rw 1 [← e]; exact satEq m

/-- **`hx`, `sx`**: the returned temperature, given to `tx`, answers the same call; the pressure belongs to it. -/
theorem C45_hx (h x : ℝ) (hok : FnX.hx.Ok h x) :
    ∃ t p, FnX.hx.call h x Doc.idT = some t ∧ FnX.hx.call h x Doc.idP = some p ∧ SatEq p (t + 273.15) := by
  obtain ⟨t, h1, h2, -, h3⟩ := C34_hx h x hok
  exact ⟨t, _, h3 _ (by decide), (h3 _ (by decide)).trans (Sat.tx_P h1 h2 hok.2), satEq (Sat.mem h1 h2)⟩
theorem C45_sx (s x : ℝ) (hok : FnX.sx.Ok s x) :
    ∃ t p, FnX.sx.call s x Doc.idT = some t ∧ FnX.sx.call s x Doc.idP = some p ∧ SatEq p (t + 273.15) := by
  obtain ⟨t, h1, h2, -, h3⟩ := C34_sx s x hok
  exact ⟨t, _, h3 _ (by decide), (h3 _ (by decide)).trans (Sat.tx_P h1 h2 hok.2), satEq (Sat.mem h1 h2)⟩

/-- Concrete. -/
example : ∃ t, Fn.ph.call (1 : ℝ) 1500 Doc.idT 4 = some t ∧ SatEq 1 (t + 273.15) :=
  C45_region4_p .ph (.inl rfl) 1 1500 (by norm_num) (by norm_num)

end If97
