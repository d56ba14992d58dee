import Verif.Lemmas.Throttle
import Verif.Lemmas.Iv.Points
import Verif.Props.C02
import Verif.Props.C28

/-!
# C48 Quality round trip by temperature

Exact arithmetic, 0..350 °C.  A two-phase state given by temperature and quality is turned into volume,
entropy or enthalpy by `tx`; `tv`, `ts`, `th` must return the quality.

* `C48_region4`: with region 4 given, all three, all x in [0,1];
* `C48_auto`: without a region for `tv` and `ts`, so the detection is right as well;
* `C48_th_partial`: without a region for `th`, except below 250 °C for mixtures whose enthalpy does not
  exceed that of water at 100 MPa and the same temperature;
* `C48_th_actual`: those mixtures are taken for region 1 and `th` answers the quality 0;
* `C48_th_violated`: there are such mixtures at 20 °C.
-/

namespace If97
open Set TwoPhase

/-- the function that takes temperature and property `o` -/
def byT (f : Fn) (o : Int) : Prop := (f = .tv ∧ o = Doc.idV) ∨ (f = .ts ∧ o = Doc.idS) ∨ (f = .th ∧ o = Doc.idH)

private theorem byT.quality {f : Fn} {o : Int} (h : byT f o) : QualityOf o := by
  rcases h with ⟨-, rfl⟩ | ⟨-, rfl⟩ | ⟨-, rfl⟩
  exacts [.inl rfl, .inr (.inr rfl), .inr (.inl rfl)]

private theorem quality_formula {f : Fn} {o : Int} (h : byT f o) (t y : ℝ) :
    f.call t y Doc.idX 4 =
      some ((y - T2sat_water (t + 273.15) o) / (T2sat_steam (t + 273.15) o - T2sat_water (t + 273.15) o)) := by
  rcases h with ⟨rfl, rfl⟩ | ⟨rfl, rfl⟩ | ⟨rfl, rfl⟩ <;> rfl

private theorem ends {T : ℝ} (h1 : 273.15 ≤ T) (h2 : T ≤ 623.15) {o : Int} (ho : QualityOf o) :
    T2sat_water T o = L (Sat.psat T) T o ∧ T2sat_steam T o = V (Sat.psat T) T o := by
  have a : (fabs (T - TC_WATER) <. (FLOAT_ERROR : ℝ)) = false := by
    simp only [real_abs, real_lt, TC_WATER, FLOAT_ERROR, decide_eq_false_iff_not, not_lt]
    rw [le_abs]; right; norm_num at *; linarith
  have b : (T <=. (623.15 : ℝ)) = true := by simp only [real_le, decide_eq_true_eq]; exact h2
  unfold L V T2sat_water T2sat_steam
  simp only [a, b, T1_facts h1 h2, Bool.false_eq_true, if_false, if_true, if_neg (not_lt.2 h2)]
  rcases ho with rfl | rfl | rfl <;> exact ⟨rfl, rfl⟩

/-- the mixture -/
private noncomputable def mixY (t x : ℝ) (o : Int) : ℝ :=
  L (Sat.psat (t + 273.15)) (t + 273.15) o +
    x * (V (Sat.psat (t + 273.15)) (t + 273.15) o - L (Sat.psat (t + 273.15)) (t + 273.15) o)

private theorem tx_value {t x : ℝ} (h1 : 0 ≤ t) (h2 : t ≤ 350) (hx : x ∈ Icc (0 : ℝ) 1) {o : Int} (ho : QualityOf o) :
    FnX.tx.call t x o = some (mixY t x o) := by
  have hm := ho.mixed
  have hT : t + 273.15 ≤ 623.15 := by norm_num at *; linarith
  have e := T1_facts (T := t + 273.15) (by linarith) hT
  rw [tx_call h1 (by norm_num at *; linarith) hx hm.neT hm.neX, mixY, ← e]
  by_cases h0 : x = 0
  · subst h0; rw [tx0_low hm hT]; ring_nf
  by_cases h1 : x = 1
  · subst h1; rw [tx1_low hm hT]; ring_nf
  rw [tx_mid h0 h1 hm]

private theorem mix_bounds {t x : ℝ} (h1 : 0 ≤ t) (h2 : t ≤ 350) (hx : x ∈ Icc (0 : ℝ) 1) {o : Int} (ho : QualityOf o) :
    L (Sat.psat (t + 273.15)) (t + 273.15) o ≤ mixY t x o ∧ mixY t x o ≤ V (Sat.psat (t + 273.15)) (t + 273.15) o ∧
    (0 < x → L (Sat.psat (t + 273.15)) (t + 273.15) o < mixY t x o) := by
  have lt := L_lt_V (T := t + 273.15) (by linarith) (by norm_num at *; linarith) ho
  unfold mixY
  have a := mul_nonneg hx.1 (sub_nonneg.2 lt.le)
  have b := mul_nonneg (sub_nonneg.2 hx.2) (sub_nonneg.2 lt.le)
  refine ⟨by linarith, by linarith, fun h => ?_⟩
  have := mul_pos h (sub_pos.2 lt)
  linarith

private theorem quality_mix {f : Fn} {o : Int} (h : byT f o) {t x : ℝ} (h1 : 0 ≤ t) (h2 : t ≤ 350) :
    f.call t (mixY t x o) Doc.idX 4 = some x := by
  have lt := L_lt_V (T := t + 273.15) (by linarith) (by norm_num at *; linarith) h.quality
  obtain ⟨e1, e2⟩ := ends (T := t + 273.15) (by linarith) (by norm_num at *; linarith) h.quality
  rw [quality_formula h, e1, e2]
  congr 1
  unfold mixY
  generalize L (Sat.psat (t + 273.15)) (t + 273.15) o = l at *
  generalize V (Sat.psat (t + 273.15)) (t + 273.15) o = v at *
  field_simp [sub_ne_zero.2 lt.ne']
  ring

/-- Region 4 given: `tv`, `ts`, `th` return the quality. -/
theorem C48_region4 (f : Fn) (o : Int) (h : byT f o) (t x : ℝ) (h1 : 0 ≤ t) (h2 : t ≤ 350) (hx : x ∈ Icc (0 : ℝ) 1) :
    ∃ y, FnX.tx.call t x o = some y ∧ f.call t y Doc.idX 4 = some x :=
  ⟨_, tx_value h1 h2 hx h.quality, quality_mix h h1 h2⟩

/-- Without a region, `tv` and `ts` find region 4 for every mixture including both ends, and the quality. -/
theorem C48_auto (f : Fn) (o : Int) (h : (f = .tv ∧ o = Doc.idV) ∨ (f = .ts ∧ o = Doc.idS)) (t x : ℝ) (h1 : 0 ≤ t)
    (h2 : t ≤ 350) (hx : x ∈ Icc (0 : ℝ) 1) :
    ∃ y, FnX.tx.call t x o = some y ∧ f.call0 t y Doc.idR = some 4 ∧ f.call0 t y Doc.idX = some x := by
  have hb : byT f o := by rcases h with h | h; exacts [.inl h, .inr (.inl h)]
  have T1 : 273.15 ≤ t + 273.15 := by linarith
  have T2 : t + 273.15 ≤ 623.15 := by norm_num at *; linarith
  refine ⟨_, tx_value h1 h2 hx hb.quality, ?_⟩
  have hd : f.detect t (mixY t x o) = some 4 := by
    obtain ⟨b1, b2, -⟩ := mix_bounds h1 h2 hx hb.quality
    obtain ⟨e1, e2⟩ := ends T1 T2 hb.quality
    rcases h with ⟨rfl, rfl⟩ | ⟨rfl, rfl⟩
    · have k : tv_sub_region t (mixY t x OV) = 4 := by
        rw [show Doc.idV = OV from rfl] at e1 e2 b1 b2
        rw [tv_low h1 h2, e1, e2, if_neg (fun e => by linarith [e.1]), if_neg (fun e => by linarith [e.1]), if_pos ⟨b1, b2⟩]
      exact congrArg some k
    · obtain ⟨k1, k2⟩ := inRange_sat T1 T2
      obtain ⟨-, -, a3, -⟩ := L_low T2 k1.regular
      obtain ⟨-, -, c3, -⟩ := V_low T2 k2.regular
      rw [show Doc.idS = OS from rfl] at b1 b2
      have lo := S_sat_lower T1 T2
      have pm : (0.000611212677444 : ℝ) ≤ Sat.psat (t + 273.15) := by
        have := Iv.psat_mono (T := 273.15) (by norm_num) T1 T2
        have := Sat.psat_min.1
        norm_num at *; linarith
      have hi := (k2.S_bounds pm (fun e => by omega)).2
      rw [Gr_1] at lo; rw [Gr_2] at hi
      have k : ts_sub_region t (mixY t x OS) = 4 := by
        rw [ts_low h1 h2 (by linarith) (by linarith), s1_eq k1.regular, s2_eq k2.regular, if_neg (fun e => by linarith [e.1]),
          if_neg (fun e => by linarith [e.1]), if_pos ⟨by linarith, by linarith⟩]
      exact congrArg some k
  rw [← C02_region_consistent f t _ Doc.idR 4 (by decide) hd, ← C02_region_consistent f t _ Doc.idX 4 (by decide) hd]
  refine ⟨?_, quality_mix hb h1 h2⟩
  rcases h with ⟨rfl, rfl⟩ | ⟨rfl, rfl⟩ <;> · show some (((4 : Int)) : ℝ) = _; norm_num

/-- Without a region, `th` finds region 4 and the quality from 250 °C, for mixtures whose enthalpy exceeds that of
water at 100 MPa (region 1 formula), and for saturated water.  The remaining mixtures: `C48_th_actual`. -/
theorem C48_th_partial (t x : ℝ) (h1 : 0 ≤ t) (h2 : t ≤ 350) (hx : x ∈ Icc (0 : ℝ) 1) :
    ∃ y h100, FnX.tx.call t x Doc.idH = some y ∧ Fn.pt.call 100 t Doc.idH 1 = some h100 ∧
      (250 ≤ t ∨ h100 < y ∨ x = 0 → Fn.th.call0 t y Doc.idR = some 4 ∧ Fn.th.call0 t y Doc.idX = some x) := by
  have hb : byT .th Doc.idH := .inr (.inr ⟨rfl, rfl⟩)
  have T1 : 273.15 ≤ t + 273.15 := by linarith
  have T2 : t + 273.15 ≤ 623.15 := by norm_num at *; linarith
  refine ⟨_, _, tx_value h1 h2 hx hb.quality, rfl, fun hc => ?_⟩
  have hc : 250 ≤ t ∨ pT2h_reg1 100 (t + 273.15) < mixY t x OH ∨ x = 0 := hc
  have hd : Fn.th.detect t (mixY t x Doc.idH) = some 4 := by
    obtain ⟨b1, b2, -⟩ := mix_bounds h1 h2 hx hb.quality
    obtain ⟨e1, e2⟩ := ends T1 T2 hb.quality
    have b0 : x = 0 → mixY t x OH = L (Sat.psat (t + 273.15)) (t + 273.15) Doc.idH := fun e => by
      rw [e, mixY]; show _ + 0 * _ = _; rw [zero_mul, add_zero]; rfl
    rw [show Doc.idH = OH from rfl] at e1 e2 b1 b2 b0
    have k : th_sub_region t (mixY t x OH) = some 4 := by
      rw [th_low h1 h2 (by rw [e1]; exact b1), e1, e2, if_neg, if_neg (fun e => by linarith [e.1]), if_pos b2]
      rintro ⟨c1, c2, c3⟩
      rcases hc with hc | hc | hc
      · linarith
      · linarith
      · linarith [b0 hc]
    exact k
  rw [← C02_region_consistent .th t _ Doc.idR 4 (by decide) hd, ← C02_region_consistent .th t _ Doc.idX 4 (by decide) hd]
  refine ⟨?_, quality_mix hb h1 h2⟩
  show some (((4 : Int)) : ℝ) = _; norm_num

/-- What the code does with the other mixtures: region 1, quality 0. -/
theorem C48_th_actual (t x : ℝ) (h1 : 0 ≤ t) (h2 : t < 250) (hx : 0 < x ∧ x ≤ 1) :
    ∃ y h100, FnX.tx.call t x Doc.idH = some y ∧ Fn.pt.call 100 t Doc.idH 1 = some h100 ∧
      (y ≤ h100 → Fn.th.call0 t y Doc.idR = some 1 ∧ Fn.th.call0 t y Doc.idX = some 0) := by
  have hb : byT .th Doc.idH := .inr (.inr ⟨rfl, rfl⟩)
  have h3 : t ≤ 350 := by linarith
  have T1 : 273.15 ≤ t + 273.15 := by linarith
  have T2 : t + 273.15 ≤ 623.15 := by norm_num at *; linarith
  have hx' : x ∈ Icc (0 : ℝ) 1 := ⟨hx.1.le, hx.2⟩
  refine ⟨_, _, tx_value h1 h3 hx' hb.quality, rfl, fun hc => ?_⟩
  have hc : mixY t x OH ≤ pT2h_reg1 100 (t + 273.15) := hc
  have hd : Fn.th.detect t (mixY t x Doc.idH) = some 1 := by
    obtain ⟨-, -, b3⟩ := mix_bounds h1 h3 hx' hb.quality
    obtain ⟨e1, e2⟩ := ends T1 T2 hb.quality
    have b3 := b3 hx.1
    rw [show Doc.idH = OH from rfl] at e1 e2 b3
    have k : th_sub_region t (mixY t x OH) = some 1 := by
      rw [th_low h1 h3 (by rw [e1]; exact b3.le), e1, if_pos ⟨h2, b3, hc⟩]
    exact k
  rw [← C02_region_consistent .th t _ Doc.idR 1 (by decide) hd, ← C02_region_consistent .th t _ Doc.idX 1 (by decide) hd]
  refine ⟨?_, ?_⟩
  · show some (((1 : Int)) : ℝ) = _; norm_num
  · rw [(C02_region_quality (F := ℝ) .th t _).1]; norm_num

/-- At 20 °C there is wet steam (0 < x < 1) that `th` takes for water: its quality is answered as 0. -/
theorem C48_th_violated : ∃ x y : ℝ, 0 < x ∧ x < 1 ∧ FnX.tx.call 20 x Doc.idH = some y ∧
    Fn.th.call0 20 y Doc.idR = some 1 ∧ Fn.th.call0 20 y Doc.idX = some 0 := by
  have T1 : (273.15 : ℝ) ≤ 20 + 273.15 := by norm_num
  have T2 : (20 + 273.15 : ℝ) ≤ 623.15 := by norm_num
  obtain ⟨k1, k2⟩ := inRange_sat T1 T2
  have eT : (20 + 273.15 : ℝ) = 293.15 := by norm_num
  have ps1 : 0.002 ≤ Sat.psat 293.15 := by
    refine (lt_trans ?_ (Sat.lt_psat (b := 0.2198) (by norm_num) ?_ (by norm_num) ?_)).le
    · norm_num
    · unfold Sat.qA Sat.qB Sat.th; norm_num
    · unfold Sat.Qf Sat.qA Sat.qB Sat.qC Sat.th; norm_num
  have ps2 : Sat.psat 293.15 ≤ 0.003 := by
    refine (lt_trans (Sat.psat_lt (b := 0.2202) (by norm_num) ?_ ?_) ?_).le
    · unfold Sat.qA Sat.qB Sat.th; norm_num
    · unfold Sat.Qf Sat.qA Sat.qB Sat.qC Sat.th; norm_num
    · norm_num
  have k3 : InRange 1 100 (20 + 273.15) := inRange1 T1 T2 (by rw [eT]; norm_num at *; linarith) le_rfl
  have a : gasR * 1386 * 0.2 < G1.H 100 (20 + 273.15) := by
    obtain ⟨B, hB, hm⟩ := Iv.cover_w5 (p := 100) le_rfl le_rfl
    have e := Iv.pos_lw5_w5 hB hm
    rw [Iv.lw5, Iv.evS_cons, Iv.cst_ev, sub_add_cancel, ← Iv.tab_j _ _ _ Iv.noZ_1, ← Iv.t1_eq] at e
    rw [eT, Gibbs.H, show G1.ps = 16.53 from rfl, show G1.Ts = 1386 from rfl,
      show G1.gt (100 / 16.53) (1386 / 293.15) = poly_j_powi (7.1 - 100 / 16.53) (1386 / 293.15 - 1.222) r1_IJn from rfl]
    have := gasR_pos
    refine mul_lt_mul_of_pos_left ?_ (by positivity)
    norm_num at e ⊢; linarith
  have b : G1.H (Sat.psat (20 + 273.15)) (20 + 273.15) < gasR * 1386 * 0.2 := by
    obtain ⟨B, hB, hm⟩ := Iv.cover_w6 (p := Sat.psat 293.15) ps1 ps2
    have e := Iv.pos_lw6_w6 hB hm
    rw [Iv.lw6, Iv.evS_cons, Iv.cst_ev, sub_add_cancel, Iv.evS_ng, ← Iv.tab_j _ _ _ Iv.noZ_1, ← Iv.t1_eq] at e
    rw [eT, Gibbs.H, show G1.ps = 16.53 from rfl, show G1.Ts = 1386 from rfl,
      show G1.gt (Sat.psat 293.15 / 16.53) (1386 / 293.15) =
        poly_j_powi (7.1 - Sat.psat 293.15 / 16.53) (1386 / 293.15 - 1.222) r1_IJn from rfl]
    have := gasR_pos
    refine mul_lt_mul_of_pos_left ?_ (by positivity)
    norm_num at e ⊢; linarith
  have lt := b.trans a
  have c := (liquid k3).1
  have d := (vapour k2 T2).1
  obtain ⟨-, a2, -, -⟩ := L_low T2 k1.regular
  obtain ⟨-, c2, -, -⟩ := V_low T2 k2.regular
  have hb : QualityOf Doc.idH := .inr (.inl rfl)
  have den := L_lt_V T1 T2 hb
  rw [show OH = Doc.idH from rfl] at a2 c2
  set l := L (Sat.psat (20 + 273.15)) (20 + 273.15) Doc.idH with hl
  set v := V (Sat.psat (20 + 273.15)) (20 + 273.15) Doc.idH with hv
  have den0 : 0 < v - l := sub_pos.2 den
  have x0 : 0 < (G1.H 100 (20 + 273.15) - l) / (v - l) := div_pos (by linarith) den0
  have x1 : (G1.H 100 (20 + 273.15) - l) / (v - l) < 1 := by rw [div_lt_one den0]; linarith
  obtain ⟨y, h100, e1, e2, e3⟩ := C48_th_actual 20 _ (by norm_num) (by norm_num) ⟨x0, x1.le⟩
  refine ⟨_, y, x0, x1, e1, e3 ?_⟩
  have ev := tx_value (t := 20) (by norm_num) (by norm_num) ⟨x0.le, x1.le⟩ hb
  rw [e1, Option.some_inj] at ev
  have eh : h100 = G1.H 100 (20 + 273.15) := by
    rw [← h1_eq k3.regular]
    exact (Option.some_inj.1 e2).symm
  rw [ev, eh, mixY, ← hl, ← hv, div_mul_cancel₀ _ den0.ne']
  linarith

/-- Concrete: wet steam at 100 °C, x = 0.3, by volume. -/
example : ∃ y, FnX.tx.call (100 : ℝ) 0.3 Doc.idV = some y ∧ Fn.tv.call0 100 y Doc.idR = some 4 ∧
    Fn.tv.call0 100 y Doc.idX = some 0.3 :=
  C48_auto .tv _ (.inl ⟨rfl, rfl⟩) 100 0.3 (by norm_num) (by norm_num) (by norm_num)

/-- `C48_th_partial` applies from 250 °C whatever the quality. -/
example : ∃ y, FnX.tx.call (300 : ℝ) 0.01 Doc.idH = some y ∧ Fn.th.call0 300 y Doc.idX = some 0.01 := by
  obtain ⟨y, _, e, -, k⟩ := C48_th_partial 300 0.01 (by norm_num) (by norm_num) (by norm_num)
  exact ⟨y, e, (k (.inl (by norm_num))).2⟩

end If97
