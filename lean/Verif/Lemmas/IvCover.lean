import Verif.Lemmas.IvTables
import Verif.Lemmas.Saturation
import Verif.Lemmas.DomainSat

/-! The boxes of Lemmas/IvTables.lean cover regions 1, 2 and 5. -/

namespace If97.Iv
open Set

theorem Box.mem_of {xc xr D yc yr E c : Nat} {x Ts c0 Ta Tb T : ℝ} (hs : 0 < Ts) (ha : 0 < Ta) (h1 : Ta ≤ T) (h2 : T ≤ Tb)
    (hx1 : ((xc : ℝ) - xr) / D ≤ x) (hx2 : x ≤ ((xc : ℝ) + xr) / D)
    (hy1 : ((yc : ℝ) - yr) / E ≤ Ts / Tb - c0) (hy2 : Ts / Ta - c0 ≤ ((yc : ℝ) + yr) / E) :
    Box.Mem ⟨xc, xr, D, yc, yr, E, c⟩ x (Ts / T - c0) := by
  have hT : 0 < T := lt_of_lt_of_le ha h1
  have e1 : Ts / T ≤ Ts / Ta := div_le_div_of_nonneg_left hs.le ha h1
  have e2 : Ts / Tb ≤ Ts / T := div_le_div_of_nonneg_left hs.le hT h2
  rw [sub_div] at hx1 hy1; rw [add_div] at hx2 hy2
  constructor <;> rw [abs_le] <;> constructor <;> linarith

theorem lo_550 : 6.0912262 < Sat.psat 550 := by
  refine lt_trans ?_ (Sat.lt_psat (b := 1.57187) (by norm_num) ?_ (by norm_num) ?_)
  · norm_num
  · unfold Sat.qA Sat.qB Sat.th; norm_num
  · unfold Sat.Qf Sat.qA Sat.qB Sat.qC Sat.th; norm_num
theorem lo_580 : 9.4089542 < Sat.psat 580 := by
  refine lt_trans ?_ (Sat.lt_psat (b := 1.75232) (by norm_num) ?_ (by norm_num) ?_)
  · norm_num
  · unfold Sat.qA Sat.qB Sat.th; norm_num
  · unfold Sat.Qf Sat.qA Sat.qB Sat.qC Sat.th; norm_num
theorem lo_600 : 12.2938322 < Sat.psat 600 := by
  refine lt_trans ?_ (Sat.lt_psat (b := 1.87348) (by norm_num) ?_ (by norm_num) ?_)
  · norm_num
  · unfold Sat.qA Sat.qB Sat.th; norm_num
  · unfold Sat.Qf Sat.qA Sat.qB Sat.qC Sat.th; norm_num
theorem lo_610 : 13.9758002 < Sat.psat 610 := by
  refine lt_trans ?_ (Sat.lt_psat (b := 1.93447) (by norm_num) ?_ (by norm_num) ?_)
  · norm_num
  · unfold Sat.qA Sat.qB Sat.th; norm_num
  · unfold Sat.Qf Sat.qA Sat.qB Sat.qC Sat.th; norm_num
theorem lo_618 : 15.4473072 < Sat.psat 618 := by
  refine lt_trans ?_ (Sat.lt_psat (b := 1.98355) (by norm_num) ?_ (by norm_num) ?_)
  · norm_num
  · unfold Sat.qA Sat.qB Sat.th; norm_num
  · unfold Sat.Qf Sat.qA Sat.qB Sat.qC Sat.th; norm_num
theorem up_298_15 : Sat.psat 298.15 < 0.0031768 := by
  refine lt_trans (Sat.psat_lt (b := 0.23729) (by norm_num) ?_ ?_) ?_
  · unfold Sat.qA Sat.qB Sat.th; norm_num
  · unfold Sat.Qf Sat.qA Sat.qB Sat.qC Sat.th; norm_num
  · norm_num
theorem up_323_15 : Sat.psat 323.15 < 0.0123708 := by
  refine lt_trans (Sat.psat_lt (b := 0.333388) (by norm_num) ?_ ?_) ?_
  · unfold Sat.qA Sat.qB Sat.th; norm_num
  · unfold Sat.Qf Sat.qA Sat.qB Sat.qC Sat.th; norm_num
  · norm_num
theorem up_348_15 : Sat.psat 348.15 < 0.0386528 := by
  refine lt_trans (Sat.psat_lt (b := 0.443257) (by norm_num) ?_ ?_) ?_
  · unfold Sat.qA Sat.qB Sat.th; norm_num
  · unfold Sat.Qf Sat.qA Sat.qB Sat.qC Sat.th; norm_num
  · norm_num
theorem up_373_15 : Sat.psat 373.15 < 0.1015448 := by
  refine lt_trans (Sat.psat_lt (b := 0.564353) (by norm_num) ?_ ?_) ?_
  · unfold Sat.qA Sat.qB Sat.th; norm_num
  · unfold Sat.Qf Sat.qA Sat.qB Sat.qC Sat.th; norm_num
  · norm_num
theorem up_398_15 : Sat.psat 398.15 < 0.2325088 := by
  refine lt_trans (Sat.psat_lt (b := 0.694223) (by norm_num) ?_ ?_) ?_
  · unfold Sat.qA Sat.qB Sat.th; norm_num
  · unfold Sat.Qf Sat.qA Sat.qB Sat.qC Sat.th; norm_num
  · norm_num
theorem up_423_15 : Sat.psat 423.15 < 0.4766448 := by
  refine lt_trans (Sat.psat_lt (b := 0.830705) (by norm_num) ?_ ?_) ?_
  · unfold Sat.qA Sat.qB Sat.th; norm_num
  · unfold Sat.Qf Sat.qA Sat.qB Sat.qC Sat.th; norm_num
  · norm_num
theorem up_448_15 : Sat.psat 448.15 < 0.8933518 := by
  refine lt_trans (Sat.psat_lt (b := 0.972003) (by norm_num) ?_ ?_) ?_
  · unfold Sat.qA Sat.qB Sat.th; norm_num
  · unfold Sat.Qf Sat.qA Sat.qB Sat.qC Sat.th; norm_num
  · norm_num
theorem up_473_15 : Sat.psat 473.15 < 1.5561708 := by
  refine lt_trans (Sat.psat_lt (b := 1.116687) (by norm_num) ?_ ?_) ?_
  · unfold Sat.qA Sat.qB Sat.th; norm_num
  · unfold Sat.Qf Sat.qA Sat.qB Sat.qC Sat.th; norm_num
  · norm_num
theorem up_498_15 : Sat.psat 498.15 < 2.5518248 := by
  refine lt_trans (Sat.psat_lt (b := 1.263666) (by norm_num) ?_ ?_) ?_
  · unfold Sat.qA Sat.qB Sat.th; norm_num
  · unfold Sat.Qf Sat.qA Sat.qB Sat.qC Sat.th; norm_num
  · norm_num
theorem up_523_15 : Sat.psat 523.15 < 3.9795218 := by
  refine lt_trans (Sat.psat_lt (b := 1.412153) (by norm_num) ?_ ?_) ?_
  · unfold Sat.qA Sat.qB Sat.th; norm_num
  · unfold Sat.Qf Sat.qA Sat.qB Sat.qC Sat.th; norm_num
  · norm_num
theorem up_533_15 : Sat.psat 533.15 < 4.6962288 := by
  refine lt_trans (Sat.psat_lt (b := 1.471848) (by norm_num) ?_ ?_) ?_
  · unfold Sat.qA Sat.qB Sat.th; norm_num
  · unfold Sat.Qf Sat.qA Sat.qB Sat.qC Sat.th; norm_num
  · norm_num
theorem up_543_15 : Sat.psat 543.15 < 5.5085218 := by
  refine lt_trans (Sat.psat_lt (b := 1.531682) (by norm_num) ?_ ?_) ?_
  · unfold Sat.qA Sat.qB Sat.th; norm_num
  · unfold Sat.Qf Sat.qA Sat.qB Sat.qC Sat.th; norm_num
  · norm_num
theorem up_553_15 : Sat.psat 553.15 < 6.4218938 := by
  refine lt_trans (Sat.psat_lt (b := 1.591643) (by norm_num) ?_ ?_) ?_
  · unfold Sat.qA Sat.qB Sat.th; norm_num
  · unfold Sat.Qf Sat.qA Sat.qB Sat.qC Sat.th; norm_num
  · norm_num
theorem up_563_15 : Sat.psat 563.15 < 7.4480088 := by
  refine lt_trans (Sat.psat_lt (b := 1.65173) (by norm_num) ?_ ?_) ?_
  · unfold Sat.qA Sat.qB Sat.th; norm_num
  · unfold Sat.Qf Sat.qA Sat.qB Sat.qC Sat.th; norm_num
  · norm_num
theorem up_573_15 : Sat.psat 573.15 < 8.5964558 := by
  refine lt_trans (Sat.psat_lt (b := 1.71195) (by norm_num) ?_ ?_) ?_
  · unfold Sat.qA Sat.qB Sat.th; norm_num
  · unfold Sat.Qf Sat.qA Sat.qB Sat.qC Sat.th; norm_num
  · norm_num
theorem up_583_15 : Sat.psat 583.15 < 9.8728608 := by
  refine lt_trans (Sat.psat_lt (b := 1.772325) (by norm_num) ?_ ?_) ?_
  · unfold Sat.qA Sat.qB Sat.th; norm_num
  · unfold Sat.Qf Sat.qA Sat.qB Sat.qC Sat.th; norm_num
  · norm_num
theorem up_593_15 : Sat.psat 593.15 < 11.2937818 := by
  refine lt_trans (Sat.psat_lt (b := 1.832889) (by norm_num) ?_ ?_) ?_
  · unfold Sat.qA Sat.qB Sat.th; norm_num
  · unfold Sat.Qf Sat.qA Sat.qB Sat.qC Sat.th; norm_num
  · norm_num
theorem up_603_15 : Sat.psat 603.15 < 12.8682628 := by
  refine lt_trans (Sat.psat_lt (b := 1.8937) (by norm_num) ?_ ?_) ?_
  · unfold Sat.qA Sat.qB Sat.th; norm_num
  · unfold Sat.Qf Sat.qA Sat.qB Sat.qC Sat.th; norm_num
  · norm_num
theorem up_613_15 : Sat.psat 613.15 < 14.6138538 := by
  refine lt_trans (Sat.psat_lt (b := 1.954841) (by norm_num) ?_ ?_) ?_
  · unfold Sat.qA Sat.qB Sat.th; norm_num
  · unfold Sat.Qf Sat.qA Sat.qB Sat.qC Sat.th; norm_num
  · norm_num
theorem up_623_15 : Sat.psat 623.15 < 16.5444118 := by
  refine lt_trans (Sat.psat_lt (b := 2.016436) (by norm_num) ?_ ?_) ?_
  · unfold Sat.qA Sat.qB Sat.th; norm_num
  · unfold Sat.Qf Sat.qA Sat.qB Sat.qC Sat.th; norm_num
  · norm_num

theorem psat_mono {T T' : ℝ} (h : 273 ≤ T) (h2 : T ≤ T') (h3 : T' ≤ 623.15) : Sat.psat T ≤ Sat.psat T' :=
  Sat.psat_strictMonoOn.monotoneOn ⟨by norm_num at h ⊢; linarith, by norm_num at h3 ⊢; linarith⟩
    ⟨by norm_num at h ⊢; linarith, by norm_num at h3 ⊢; linarith⟩ h2

theorem cover1 {p T : ℝ} (h1 : 273.1499999 ≤ T) (h2 : T ≤ 623.15) (hp0 : 0 < p) (hp : Sat.psat T ≤ p + 1e-7) (hp2 : p ≤ 100) :
    ∃ B ∈ boxes1, B.Mem (7.1 - p / 16.53) (1386 / T - 1.222) := by
  rcases le_total T 550 with h | h
  · refine ⟨⟨4075197, 3024804, 1000000, 2575068, 1277068, 1000000, 1222000⟩, by simp [boxes1], Box.mem_of (Ta := 273.1499999) (Tb := 550) (by norm_num) (by norm_num) (by assumption) (by assumption) ?_ ?_ (by norm_num) (by norm_num)⟩
    · norm_num; linarith
    · norm_num at *; linarith
  rcases le_total T 580 with h | h
  · have hq := lt_of_lt_of_le lo_550 ((psat_mono (by norm_num) (by assumption) h2).trans hp)
    refine ⟨⟨3890949, 2840556, 1000000, 1232828, 65173, 1000000, 1222000⟩, by simp [boxes1], Box.mem_of (Ta := 550) (Tb := 580) (by norm_num) (by norm_num) (by assumption) (by assumption) ?_ ?_ (by norm_num) (by norm_num)⟩
    · norm_num; linarith
    · norm_num at *; linarith
  rcases le_total T 600 with h | h
  · have hq := lt_of_lt_of_le lo_580 ((psat_mono (by norm_num) (by assumption) h2).trans hp)
    refine ⟨⟨3790595, 2740202, 1000000, 1127828, 39828, 1000000, 1222000⟩, by simp [boxes1], Box.mem_of (Ta := 580) (Tb := 600) (by norm_num) (by norm_num) (by assumption) (by assumption) ?_ ?_ (by norm_num) (by norm_num)⟩
    · norm_num; linarith
    · norm_num at *; linarith
  rcases le_total T 610 with h | h
  · have hq := lt_of_lt_of_le lo_600 ((psat_mono (by norm_num) (by assumption) h2).trans hp)
    refine ⟨⟨3703333, 2652940, 1000000, 1069066, 18935, 1000000, 1222000⟩, by simp [boxes1], Box.mem_of (Ta := 600) (Tb := 610) (by norm_num) (by norm_num) (by assumption) (by assumption) ?_ ?_ (by norm_num) (by norm_num)⟩
    · norm_num; linarith
    · norm_num at *; linarith
  rcases le_total T 618 with h | h
  · have hq := lt_of_lt_of_le lo_610 ((psat_mono (by norm_num) (by assumption) h2).trans hp)
    refine ⟨⟨3652457, 2602064, 1000000, 1035425, 14707, 1000000, 1222000⟩, by simp [boxes1], Box.mem_of (Ta := 610) (Tb := 618) (by norm_num) (by norm_num) (by assumption) (by assumption) ?_ ?_ (by norm_num) (by norm_num)⟩
    · norm_num; linarith
    · norm_num at *; linarith
  have hq := lt_of_lt_of_le lo_618 ((psat_mono (by norm_num) (by assumption) h2).trans hp)
  refine ⟨⟨3607946, 2557553, 1000000, 1011451, 9268, 1000000, 1222000⟩, by simp [boxes1], Box.mem_of (Ta := 618) (Tb := 623.15) (by norm_num) (by norm_num) (by assumption) (by assumption) ?_ ?_ (by norm_num) (by norm_num)⟩
  · norm_num; linarith
  · norm_num at *; linarith

theorem cover1e {p T : ℝ} (h1 : 278.15 ≤ T) (h2 : T ≤ 623.15) (hp0 : 0 < p) (hp : Sat.psat T ≤ p + 1e-7) (hp2 : p ≤ 100) :
    ∃ B ∈ boxes1e, B.Mem (7.1 - p / 16.53) (1386 / T - 1.222) := by
  rcases le_total T 550 with h | h
  · refine ⟨⟨4075197, 3024804, 1000000, 2529462, 1231462, 1000000, 1222000⟩, by simp [boxes1e], Box.mem_of (Ta := 278.15) (Tb := 550) (by norm_num) (by norm_num) (by assumption) (by assumption) ?_ ?_ (by norm_num) (by norm_num)⟩
    · norm_num; linarith
    · norm_num at *; linarith
  rcases le_total T 580 with h | h
  · have hq := lt_of_lt_of_le lo_550 ((psat_mono (by norm_num) (by assumption) h2).trans hp)
    refine ⟨⟨3890949, 2840556, 1000000, 1232828, 65173, 1000000, 1222000⟩, by simp [boxes1e], Box.mem_of (Ta := 550) (Tb := 580) (by norm_num) (by norm_num) (by assumption) (by assumption) ?_ ?_ (by norm_num) (by norm_num)⟩
    · norm_num; linarith
    · norm_num at *; linarith
  rcases le_total T 600 with h | h
  · have hq := lt_of_lt_of_le lo_580 ((psat_mono (by norm_num) (by assumption) h2).trans hp)
    refine ⟨⟨3790595, 2740202, 1000000, 1127828, 39828, 1000000, 1222000⟩, by simp [boxes1e], Box.mem_of (Ta := 580) (Tb := 600) (by norm_num) (by norm_num) (by assumption) (by assumption) ?_ ?_ (by norm_num) (by norm_num)⟩
    · norm_num; linarith
    · norm_num at *; linarith
  rcases le_total T 610 with h | h
  · have hq := lt_of_lt_of_le lo_600 ((psat_mono (by norm_num) (by assumption) h2).trans hp)
    refine ⟨⟨3703333, 2652940, 1000000, 1069066, 18935, 1000000, 1222000⟩, by simp [boxes1e], Box.mem_of (Ta := 600) (Tb := 610) (by norm_num) (by norm_num) (by assumption) (by assumption) ?_ ?_ (by norm_num) (by norm_num)⟩
    · norm_num; linarith
    · norm_num at *; linarith
  rcases le_total T 618 with h | h
  · have hq := lt_of_lt_of_le lo_610 ((psat_mono (by norm_num) (by assumption) h2).trans hp)
    refine ⟨⟨3652457, 2602064, 1000000, 1035425, 14707, 1000000, 1222000⟩, by simp [boxes1e], Box.mem_of (Ta := 610) (Tb := 618) (by norm_num) (by norm_num) (by assumption) (by assumption) ?_ ?_ (by norm_num) (by norm_num)⟩
    · norm_num; linarith
    · norm_num at *; linarith
  have hq := lt_of_lt_of_le lo_618 ((psat_mono (by norm_num) (by assumption) h2).trans hp)
  refine ⟨⟨3607946, 2557553, 1000000, 1011451, 9268, 1000000, 1222000⟩, by simp [boxes1e], Box.mem_of (Ta := 618) (Tb := 623.15) (by norm_num) (by norm_num) (by assumption) (by assumption) ?_ ?_ (by norm_num) (by norm_num)⟩
  · norm_num; linarith
  · norm_num at *; linarith

theorem cover2a {p T : ℝ} (h1 : 273.1499999 ≤ T) (h2 : T ≤ 623.15) (hp0 : 0 ≤ p) (hp : p ≤ Sat.psat T + 1e-7) :
    ∃ B ∈ boxes2a, B.Mem p (540 / T - 0.5) := by
  have h0 : 273 ≤ T := by norm_num at h1 ⊢; linarith
  rcases le_total T 298.15 with h | h
  · have hq := lt_of_le_of_lt (hp.trans (add_le_add_left (psat_mono h0 h (by norm_num)) 1e-7)) (add_lt_add_of_lt_of_le up_298_15 le_rfl)
    refine ⟨⟨1589, 1589, 1000000, 1394052, 82884, 1000000, 500000⟩, by simp [boxes2a], Box.mem_of (Ta := 273.1499999) (Tb := 298.15) (by norm_num) (by norm_num) (by assumption) (by assumption) ?_ ?_ (by norm_num) (by norm_num)⟩
    · norm_num; linarith
    · norm_num at hq ⊢; linarith
  rcases le_total T 323.15 with h | h
  · have hq := lt_of_le_of_lt (hp.trans (add_le_add_left (psat_mono h0 h (by norm_num)) 1e-7)) (add_lt_add_of_lt_of_le up_323_15 le_rfl)
    refine ⟨⟨6186, 6186, 1000000, 1241110, 70060, 1000000, 500000⟩, by simp [boxes2a], Box.mem_of (Ta := 298.15) (Tb := 323.15) (by norm_num) (by norm_num) (by assumption) (by assumption) ?_ ?_ (by norm_num) (by norm_num)⟩
    · norm_num; linarith
    · norm_num at hq ⊢; linarith
  rcases le_total T 348.15 with h | h
  · have hq := lt_of_le_of_lt (hp.trans (add_le_add_left (psat_mono h0 h (by norm_num)) 1e-7)) (add_lt_add_of_lt_of_le up_348_15 le_rfl)
    refine ⟨⟨19327, 19327, 1000000, 1111053, 59998, 1000000, 500000⟩, by simp [boxes2a], Box.mem_of (Ta := 323.15) (Tb := 348.15) (by norm_num) (by norm_num) (by assumption) (by assumption) ?_ ?_ (by norm_num) (by norm_num)⟩
    · norm_num; linarith
    · norm_num at hq ⊢; linarith
  rcases le_total T 373.15 with h | h
  · have hq := lt_of_le_of_lt (hp.trans (add_le_add_left (psat_mono h0 h (by norm_num)) 1e-7)) (add_lt_add_of_lt_of_le up_373_15 le_rfl)
    refine ⟨⟨50773, 50773, 1000000, 999098, 51959, 1000000, 500000⟩, by simp [boxes2a], Box.mem_of (Ta := 348.15) (Tb := 373.15) (by norm_num) (by norm_num) (by assumption) (by assumption) ?_ ?_ (by norm_num) (by norm_num)⟩
    · norm_num; linarith
    · norm_num at hq ⊢; linarith
  rcases le_total T 398.15 with h | h
  · have hq := lt_of_le_of_lt (hp.trans (add_le_add_left (psat_mono h0 h (by norm_num)) 1e-7)) (add_lt_add_of_lt_of_le up_398_15 le_rfl)
    refine ⟨⟨116255, 116255, 1000000, 901706, 45434, 1000000, 500000⟩, by simp [boxes2a], Box.mem_of (Ta := 373.15) (Tb := 398.15) (by norm_num) (by norm_num) (by assumption) (by assumption) ?_ ?_ (by norm_num) (by norm_num)⟩
    · norm_num; linarith
    · norm_num at hq ⊢; linarith
  rcases le_total T 423.15 with h | h
  · have hq := lt_of_le_of_lt (hp.trans (add_le_add_left (psat_mono h0 h (by norm_num)) 1e-7)) (add_lt_add_of_lt_of_le up_423_15 le_rfl)
    refine ⟨⟨238323, 238323, 1000000, 816208, 40065, 1000000, 500000⟩, by simp [boxes2a], Box.mem_of (Ta := 398.15) (Tb := 423.15) (by norm_num) (by norm_num) (by assumption) (by assumption) ?_ ?_ (by norm_num) (by norm_num)⟩
    · norm_num; linarith
    · norm_num at hq ⊢; linarith
  rcases le_total T 448.15 with h | h
  · have hq := lt_of_le_of_lt (hp.trans (add_le_add_left (psat_mono h0 h (by norm_num)) 1e-7)) (add_lt_add_of_lt_of_le up_448_15 le_rfl)
    refine ⟨⟨446676, 446676, 1000000, 740549, 35596, 1000000, 500000⟩, by simp [boxes2a], Box.mem_of (Ta := 423.15) (Tb := 448.15) (by norm_num) (by norm_num) (by assumption) (by assumption) ?_ ?_ (by norm_num) (by norm_num)⟩
    · norm_num; linarith
    · norm_num at hq ⊢; linarith
  rcases le_total T 473.15 with h | h
  · have hq := lt_of_le_of_lt (hp.trans (add_le_add_left (psat_mono h0 h (by norm_num)) 1e-7)) (add_lt_add_of_lt_of_le up_473_15 le_rfl)
    refine ⟨⟨778086, 778086, 1000000, 673121, 31834, 1000000, 500000⟩, by simp [boxes2a], Box.mem_of (Ta := 448.15) (Tb := 473.15) (by norm_num) (by norm_num) (by assumption) (by assumption) ?_ ?_ (by norm_num) (by norm_num)⟩
    · norm_num; linarith
    · norm_num at hq ⊢; linarith
  rcases le_total T 498.15 with h | h
  · have hq := lt_of_le_of_lt (hp.trans (add_le_add_left (psat_mono h0 h (by norm_num)) 1e-7)) (add_lt_add_of_lt_of_le up_498_15 le_rfl)
    refine ⟨⟨1275913, 1275913, 1000000, 612649, 28639, 1000000, 500000⟩, by simp [boxes2a], Box.mem_of (Ta := 473.15) (Tb := 498.15) (by norm_num) (by norm_num) (by assumption) (by assumption) ?_ ?_ (by norm_num) (by norm_num)⟩
    · norm_num; linarith
    · norm_num at hq ⊢; linarith
  rcases le_total T 523.15 with h | h
  · have hq := lt_of_le_of_lt (hp.trans (add_le_add_left (psat_mono h0 h (by norm_num)) 1e-7)) (add_lt_add_of_lt_of_le up_523_15 le_rfl)
    refine ⟨⟨1989761, 1989761, 1000000, 558110, 25902, 1000000, 500000⟩, by simp [boxes2a], Box.mem_of (Ta := 498.15) (Tb := 523.15) (by norm_num) (by norm_num) (by assumption) (by assumption) ?_ ?_ (by norm_num) (by norm_num)⟩
    · norm_num; linarith
    · norm_num at hq ⊢; linarith
  rcases le_total T 533.15 with h | h
  · have hq := lt_of_le_of_lt (hp.trans (add_le_add_left (psat_mono h0 h (by norm_num)) 1e-7)) (add_lt_add_of_lt_of_le up_533_15 le_rfl)
    refine ⟨⟨2348115, 2348115, 1000000, 522529, 9681, 1000000, 500000⟩, by simp [boxes2a], Box.mem_of (Ta := 523.15) (Tb := 533.15) (by norm_num) (by norm_num) (by assumption) (by assumption) ?_ ?_ (by norm_num) (by norm_num)⟩
    · norm_num; linarith
    · norm_num at hq ⊢; linarith
  rcases le_total T 543.15 with h | h
  · have hq := lt_of_le_of_lt (hp.trans (add_le_add_left (psat_mono h0 h (by norm_num)) 1e-7)) (add_lt_add_of_lt_of_le up_543_15 le_rfl)
    refine ⟨⟨2754261, 2754261, 1000000, 503525, 9325, 1000000, 500000⟩, by simp [boxes2a], Box.mem_of (Ta := 533.15) (Tb := 543.15) (by norm_num) (by norm_num) (by assumption) (by assumption) ?_ ?_ (by norm_num) (by norm_num)⟩
    · norm_num; linarith
    · norm_num at hq ⊢; linarith
  rcases le_total T 553.15 with h | h
  · have hq := lt_of_le_of_lt (hp.trans (add_le_add_left (psat_mono h0 h (by norm_num)) 1e-7)) (add_lt_add_of_lt_of_le up_553_15 le_rfl)
    refine ⟨⟨3210947, 3210947, 1000000, 485214, 8987, 1000000, 500000⟩, by simp [boxes2a], Box.mem_of (Ta := 543.15) (Tb := 553.15) (by norm_num) (by norm_num) (by assumption) (by assumption) ?_ ?_ (by norm_num) (by norm_num)⟩
    · norm_num; linarith
    · norm_num at hq ⊢; linarith
  rcases le_total T 563.15 with h | h
  · have hq := lt_of_le_of_lt (hp.trans (add_le_add_left (psat_mono h0 h (by norm_num)) 1e-7)) (add_lt_add_of_lt_of_le up_563_15 le_rfl)
    refine ⟨⟨3724005, 3724005, 1000000, 467560, 8669, 1000000, 500000⟩, by simp [boxes2a], Box.mem_of (Ta := 553.15) (Tb := 563.15) (by norm_num) (by norm_num) (by assumption) (by assumption) ?_ ?_ (by norm_num) (by norm_num)⟩
    · norm_num; linarith
    · norm_num at hq ⊢; linarith
  rcases le_total T 573.15 with h | h
  · have hq := lt_of_le_of_lt (hp.trans (add_le_add_left (psat_mono h0 h (by norm_num)) 1e-7)) (add_lt_add_of_lt_of_le up_573_15 le_rfl)
    refine ⟨⟨4298228, 4298228, 1000000, 450527, 8366, 1000000, 500000⟩, by simp [boxes2a], Box.mem_of (Ta := 563.15) (Tb := 573.15) (by norm_num) (by norm_num) (by assumption) (by assumption) ?_ ?_ (by norm_num) (by norm_num)⟩
    · norm_num; linarith
    · norm_num at hq ⊢; linarith
  rcases le_total T 583.15 with h | h
  · have hq := lt_of_le_of_lt (hp.trans (add_le_add_left (psat_mono h0 h (by norm_num)) 1e-7)) (add_lt_add_of_lt_of_le up_583_15 le_rfl)
    refine ⟨⟨4936431, 4936431, 1000000, 434084, 8079, 1000000, 500000⟩, by simp [boxes2a], Box.mem_of (Ta := 573.15) (Tb := 583.15) (by norm_num) (by norm_num) (by assumption) (by assumption) ?_ ?_ (by norm_num) (by norm_num)⟩
    · norm_num; linarith
    · norm_num at hq ⊢; linarith
  rcases le_total T 593.15 with h | h
  · have hq := lt_of_le_of_lt (hp.trans (add_le_add_left (psat_mono h0 h (by norm_num)) 1e-7)) (add_lt_add_of_lt_of_le up_593_15 le_rfl)
    refine ⟨⟨5646891, 5646891, 1000000, 418200, 7807, 1000000, 500000⟩, by simp [boxes2a], Box.mem_of (Ta := 583.15) (Tb := 593.15) (by norm_num) (by norm_num) (by assumption) (by assumption) ?_ ?_ (by norm_num) (by norm_num)⟩
    · norm_num; linarith
    · norm_num at hq ⊢; linarith
  rcases le_total T 603.15 with h | h
  · have hq := lt_of_le_of_lt (hp.trans (add_le_add_left (psat_mono h0 h (by norm_num)) 1e-7)) (add_lt_add_of_lt_of_le up_603_15 le_rfl)
    refine ⟨⟨6434132, 6434132, 1000000, 402847, 7548, 1000000, 500000⟩, by simp [boxes2a], Box.mem_of (Ta := 593.15) (Tb := 603.15) (by norm_num) (by norm_num) (by assumption) (by assumption) ?_ ?_ (by norm_num) (by norm_num)⟩
    · norm_num; linarith
    · norm_num at hq ⊢; linarith
  rcases le_total T 613.15 with h | h
  · have hq := lt_of_le_of_lt (hp.trans (add_le_add_left (psat_mono h0 h (by norm_num)) 1e-7)) (add_lt_add_of_lt_of_le up_613_15 le_rfl)
    refine ⟨⟨7306927, 7306927, 1000000, 387999, 7301, 1000000, 500000⟩, by simp [boxes2a], Box.mem_of (Ta := 603.15) (Tb := 613.15) (by norm_num) (by norm_num) (by assumption) (by assumption) ?_ ?_ (by norm_num) (by norm_num)⟩
    · norm_num; linarith
    · norm_num at hq ⊢; linarith
  have hq := lt_of_le_of_lt (hp.trans (add_le_add_left (psat_mono h0 h2 (by norm_num)) 1e-7)) (add_lt_add_of_lt_of_le up_623_15 le_rfl)
  refine ⟨⟨8272206, 8272206, 1000000, 373632, 7067, 1000000, 500000⟩, by simp [boxes2a], Box.mem_of (Ta := 613.15) (Tb := 623.15) (by norm_num) (by norm_num) (by assumption) (by assumption) ?_ ?_ (by norm_num) (by norm_num)⟩
  · norm_num; linarith
  · norm_num at hq ⊢; linarith

theorem cover2b {p T : ℝ} (h1 : 623.15 ≤ T) (h2 : T ≤ 1073.15) (hp0 : 0 ≤ p) (hp : p ≤ 100.0000001)
    (hB : T ≤ 863.15 → p ≤ Domain.pB23 T + 1e-7) : ∃ B ∈ boxes2b, B.Mem p (540 / T - 0.5) := by
  unfold Domain.pB23 at hB
  rcases le_total T 633.15 with h | h
  · have hq := hB (by linarith)
    have hq2 : p ≤ 17.663 := by norm_num at h1 h hq ⊢; nlinarith
    refine ⟨⟨8831500, 8831500, 1000000, 359722, 6844, 1000000, 500000⟩, by simp [boxes2b], Box.mem_of (Ta := 623.15) (Tb := 633.15) (by norm_num) (by norm_num) (by assumption) (by assumption) ?_ ?_ (by norm_num) (by norm_num)⟩
    · norm_num; linarith
    · norm_num at hq2 ⊢; linarith
  rcases le_total T 643.15 with h | h
  · have hq := hB (by linarith)
    have hq2 : p ≤ 19.001 := by norm_num at h1 h hq ⊢; nlinarith
    refine ⟨⟨9500500, 9500500, 1000000, 346248, 6631, 1000000, 500000⟩, by simp [boxes2b], Box.mem_of (Ta := 633.15) (Tb := 643.15) (by norm_num) (by norm_num) (by assumption) (by assumption) ?_ ?_ (by norm_num) (by norm_num)⟩
    · norm_num; linarith
    · norm_num at hq2 ⊢; linarith
  rcases le_total T 653.15 with h | h
  · have hq := hB (by linarith)
    have hq2 : p ≤ 20.542 := by norm_num at h1 h hq ⊢; nlinarith
    refine ⟨⟨10271000, 10271000, 1000000, 333190, 6428, 1000000, 500000⟩, by simp [boxes2b], Box.mem_of (Ta := 643.15) (Tb := 653.15) (by norm_num) (by norm_num) (by assumption) (by assumption) ?_ ?_ (by norm_num) (by norm_num)⟩
    · norm_num; linarith
    · norm_num at hq2 ⊢; linarith
  rcases le_total T 663.15 with h | h
  · have hq := hB (by linarith)
    have hq2 : p ≤ 22.287 := by norm_num at h1 h hq ⊢; nlinarith
    refine ⟨⟨11143500, 11143500, 1000000, 320529, 6234, 1000000, 500000⟩, by simp [boxes2b], Box.mem_of (Ta := 653.15) (Tb := 663.15) (by norm_num) (by norm_num) (by assumption) (by assumption) ?_ ?_ (by norm_num) (by norm_num)⟩
    · norm_num; linarith
    · norm_num at hq2 ⊢; linarith
  rcases le_total T 673.15 with h | h
  · have hq := hB (by linarith)
    have hq2 : p ≤ 24.236 := by norm_num at h1 h hq ⊢; nlinarith
    refine ⟨⟨12118000, 12118000, 1000000, 308247, 6049, 1000000, 500000⟩, by simp [boxes2b], Box.mem_of (Ta := 663.15) (Tb := 673.15) (by norm_num) (by norm_num) (by assumption) (by assumption) ?_ ?_ (by norm_num) (by norm_num)⟩
    · norm_num; linarith
    · norm_num at hq2 ⊢; linarith
  rcases le_total T 683.15 with h | h
  · have hq := hB (by linarith)
    have hq2 : p ≤ 26.389 := by norm_num at h1 h hq ⊢; nlinarith
    refine ⟨⟨13194500, 13194500, 1000000, 296327, 5872, 1000000, 500000⟩, by simp [boxes2b], Box.mem_of (Ta := 673.15) (Tb := 683.15) (by norm_num) (by norm_num) (by assumption) (by assumption) ?_ ?_ (by norm_num) (by norm_num)⟩
    · norm_num; linarith
    · norm_num at hq2 ⊢; linarith
  rcases le_total T 693.15 with h | h
  · have hq := hB (by linarith)
    have hq2 : p ≤ 28.746 := by norm_num at h1 h hq ⊢; nlinarith
    refine ⟨⟨14373000, 14373000, 1000000, 284754, 5702, 1000000, 500000⟩, by simp [boxes2b], Box.mem_of (Ta := 683.15) (Tb := 693.15) (by norm_num) (by norm_num) (by assumption) (by assumption) ?_ ?_ (by norm_num) (by norm_num)⟩
    · norm_num; linarith
    · norm_num at hq2 ⊢; linarith
  rcases le_total T 703.15 with h | h
  · have hq := hB (by linarith)
    have hq2 : p ≤ 31.306 := by norm_num at h1 h hq ⊢; nlinarith
    refine ⟨⟨15653000, 15653000, 1000000, 273513, 5541, 1000000, 500000⟩, by simp [boxes2b], Box.mem_of (Ta := 693.15) (Tb := 703.15) (by norm_num) (by norm_num) (by assumption) (by assumption) ?_ ?_ (by norm_num) (by norm_num)⟩
    · norm_num; linarith
    · norm_num at hq2 ⊢; linarith
  rcases le_total T 723.15 with h | h
  · have hq := hB (by linarith)
    have hq2 : p ≤ 37.039 := by norm_num at h1 h hq ⊢; nlinarith
    refine ⟨⟨18519500, 18519500, 1000000, 257353, 10620, 1000000, 500000⟩, by simp [boxes2b], Box.mem_of (Ta := 703.15) (Tb := 723.15) (by norm_num) (by norm_num) (by assumption) (by assumption) ?_ ?_ (by norm_num) (by norm_num)⟩
    · norm_num; linarith
    · norm_num at hq2 ⊢; linarith
  rcases le_total T 743.15 with h | h
  · have hq := hB (by linarith)
    have hq2 : p ≤ 43.587 := by norm_num at h1 h hq ⊢; nlinarith
    refine ⟨⟨21793500, 21793500, 1000000, 236685, 10049, 1000000, 500000⟩, by simp [boxes2b], Box.mem_of (Ta := 723.15) (Tb := 743.15) (by norm_num) (by norm_num) (by assumption) (by assumption) ?_ ?_ (by norm_num) (by norm_num)⟩
    · norm_num; linarith
    · norm_num at hq2 ⊢; linarith
  rcases le_total T 763.15 with h | h
  · have hq := hB (by linarith)
    have hq2 : p ≤ 50.951 := by norm_num at h1 h hq ⊢; nlinarith
    refine ⟨⟨25475500, 25475500, 1000000, 217115, 9522, 1000000, 500000⟩, by simp [boxes2b], Box.mem_of (Ta := 743.15) (Tb := 763.15) (by norm_num) (by norm_num) (by assumption) (by assumption) ?_ ?_ (by norm_num) (by norm_num)⟩
    · norm_num; linarith
    · norm_num at hq2 ⊢; linarith
  rcases le_total T 783.15 with h | h
  · have hq := hB (by linarith)
    have hq2 : p ≤ 59.13 := by norm_num at h1 h hq ⊢; nlinarith
    refine ⟨⟨29565000, 29565000, 1000000, 198559, 9036, 1000000, 500000⟩, by simp [boxes2b], Box.mem_of (Ta := 763.15) (Tb := 783.15) (by norm_num) (by norm_num) (by assumption) (by assumption) ?_ ?_ (by norm_num) (by norm_num)⟩
    · norm_num; linarith
    · norm_num at hq2 ⊢; linarith
  rcases le_total T 803.15 with h | h
  · have hq := hB (by linarith)
    have hq2 : p ≤ 68.124 := by norm_num at h1 h hq ⊢; nlinarith
    refine ⟨⟨34062000, 34062000, 1000000, 180938, 8586, 1000000, 500000⟩, by simp [boxes2b], Box.mem_of (Ta := 783.15) (Tb := 803.15) (by norm_num) (by norm_num) (by assumption) (by assumption) ?_ ?_ (by norm_num) (by norm_num)⟩
    · norm_num; linarith
    · norm_num at hq2 ⊢; linarith
  rcases le_total T 823.15 with h | h
  · have hq := hB (by linarith)
    have hq2 : p ≤ 77.934 := by norm_num at h1 h hq ⊢; nlinarith
    refine ⟨⟨38967000, 38967000, 1000000, 164185, 8169, 1000000, 500000⟩, by simp [boxes2b], Box.mem_of (Ta := 803.15) (Tb := 823.15) (by norm_num) (by norm_num) (by assumption) (by assumption) ?_ ?_ (by norm_num) (by norm_num)⟩
    · norm_num; linarith
    · norm_num at hq2 ⊢; linarith
  rcases le_total T 843.15 with h | h
  · have hq := hB (by linarith)
    have hq2 : p ≤ 88.56 := by norm_num at h1 h hq ⊢; nlinarith
    refine ⟨⟨44280000, 44280000, 1000000, 148236, 7781, 1000000, 500000⟩, by simp [boxes2b], Box.mem_of (Ta := 823.15) (Tb := 843.15) (by norm_num) (by norm_num) (by assumption) (by assumption) ?_ ?_ (by norm_num) (by norm_num)⟩
    · norm_num; linarith
    · norm_num at hq2 ⊢; linarith
  rcases le_total T 863.15 with h | h
  · have hq2 : p ≤ 100.0000001 := hp
    refine ⟨⟨50000500, 50000500, 1000000, 133036, 7421, 1000000, 500000⟩, by simp [boxes2b], Box.mem_of (Ta := 843.15) (Tb := 863.15) (by norm_num) (by norm_num) (by assumption) (by assumption) ?_ ?_ (by norm_num) (by norm_num)⟩
    · norm_num; linarith
    · norm_num at hq2 ⊢; linarith
  have hq2 : p ≤ 100.0000001 := hp
  refine ⟨⟨50000500, 50000500, 1000000, 64404, 61213, 1000000, 500000⟩, by simp [boxes2b], Box.mem_of (Ta := 863.15) (Tb := 1073.15) (by norm_num) (by norm_num) (by assumption) (by assumption) ?_ ?_ (by norm_num) (by norm_num)⟩
  · norm_num; linarith
  · norm_num at hq2 ⊢; linarith

theorem cover_w1 {p : ℝ} (h1 : 1 ≤ p) (h2 : p ≤ 1) :
    ∃ B ∈ boxes_w1, B.Mem (7.1 - p / 16.53) (1386 / 273.15 - 1.222) := by
  refine ⟨⟨7039504, 1, 1000000, 3852136, 1, 1000000, 1222000⟩, by simp [boxes_w1], Box.mem_of (Ta := 273.15) (Tb := 273.15) (by norm_num) (by norm_num) (by norm_num) (by norm_num) ?_ ?_ (by norm_num) (by norm_num)⟩
  · norm_num; linarith
  · norm_num at *; linarith

theorem cover_w2 {p : ℝ} (h1 : 1 ≤ p) (h2 : p ≤ 1) :
    ∃ B ∈ boxes_w2, B.Mem (7.1 - p / 16.53) (1386 / 278.15 - 1.222) := by
  refine ⟨⟨7039504, 1, 1000000, 3760923, 1, 1000000, 1222000⟩, by simp [boxes_w2], Box.mem_of (Ta := 278.15) (Tb := 278.15) (by norm_num) (by norm_num) (by norm_num) (by norm_num) ?_ ?_ (by norm_num) (by norm_num)⟩
  · norm_num; linarith
  · norm_num at *; linarith

theorem cover_w3 {p : ℝ} (h1 : 10 ≤ p) (h2 : p ≤ 10) :
    ∃ B ∈ boxes_w3, B.Mem (7.1 - p / 16.53) (1386 / 274.15 - 1.222) := by
  refine ⟨⟨6495040, 1, 1000000, 3833627, 1, 1000000, 1222000⟩, by simp [boxes_w3], Box.mem_of (Ta := 274.15) (Tb := 274.15) (by norm_num) (by norm_num) (by norm_num) (by norm_num) ?_ ?_ (by norm_num) (by norm_num)⟩
  · norm_num; linarith
  · norm_num at *; linarith

theorem cover_w4 {p : ℝ} (h1 : 0.0006 ≤ p) (h2 : p ≤ 0.0007) :
    ∃ B ∈ boxes_w4, B.Mem (7.1 - p / 16.53) (1386 / 274.15 - 1.222) := by
  refine ⟨⟨7099961, 4, 1000000, 3833627, 1, 1000000, 1222000⟩, by simp [boxes_w4], Box.mem_of (Ta := 274.15) (Tb := 274.15) (by norm_num) (by norm_num) (by norm_num) (by norm_num) ?_ ?_ (by norm_num) (by norm_num)⟩
  · norm_num; linarith
  · norm_num at *; linarith

theorem cover1p {p : ℝ} (h1 : 16.5 ≤ p) (h2 : p ≤ 100) :
    ∃ B ∈ boxes1p, B.Mem (7.1 - p / 16.53) (1386 / 623.15 - 1.222) := by
  refine ⟨⟨3576104, 2525711, 1000000, 1002273, 90, 1000000, 1222000⟩, by simp [boxes1p], Box.mem_of (Ta := 623.1) (Tb := 623.15) (by norm_num) (by norm_num) (by norm_num) (by norm_num) ?_ ?_ (by norm_num) (by norm_num)⟩
  · norm_num; linarith
  · norm_num at *; linarith

theorem cover5 {p T : ℝ} (h1 : 1073.15 ≤ T) (h2 : T ≤ 2273.15) (hp0 : 0 ≤ p) (hp : p ≤ 50) :
    ∃ B ∈ boxes5, B.Mem p (1000 / T - 0) := by
  refine ⟨⟨25000000, 25000000, 1000000, 685878, 245960, 1000000, 0⟩, by simp [boxes5], Box.mem_of (Ta := 1073.15) (Tb := 2273.15) (by norm_num) (by norm_num) (by assumption) (by assumption) ?_ ?_ (by norm_num) (by norm_num)⟩
  · norm_num; linarith
  · norm_num; linarith

end If97.Iv

/-! Further polynomials and boxes for C47, C48, C49 (generated like Lemmas/IvTables.lean). -/

namespace If97.Iv
open Set

/-- γ_πτ in region 1, −γ_πτ in regions 2 and 5 -/
def l1z : List SM := ng (dX (dY t1))
def l2z : List SM := ng (dX (dY t2))
def l5z : List SM := ng (dX (dY t5))
/-- τ γ_τ − γ + 0.015 -/
def l1n : List SM := cst 15 1000 :: l1m
/-- γ_τ − 0.2 and 0.2 − γ_τ in region 1 -/
def lw5 : List SM := cst (-2) 10 :: dY t1
def lw6 : List SM := cst 2 10 :: ng (dY t1)

/-- from 273.15 to 473.15 K -/
def boxes1c : List Box := [
  ⟨4075197, 3024804, 1000000, 2779720, 1072417, 1000000, 1222000⟩]

/-- from 273.15 to 278.15 K -/
def boxes1n : List Box := [
  ⟨7099952, 13, 1000000, 3806529, 45607, 1000000, 1222000⟩]

/-- from 5863/20 to 5863/20 K -/
def boxes_w5 : List Box := [
  ⟨1050394, 1, 1000000, 3505955, 1, 1000000, 1222000⟩]

/-- from 5863/20 to 5863/20 K -/
def boxes_w6 : List Box := [
  ⟨7099849, 31, 1000000, 3505955, 1, 1000000, 1222000⟩]


theorem cover1c {p T : ℝ} (h1 : 273.1499999 ≤ T) (h2 : T ≤ 473.15) (hp0 : 0 ≤ p) (hp : p ≤ 100) :
    ∃ B ∈ boxes1c, B.Mem (7.1 - p / 16.53) (1386 / T - 1.222) := by
  refine ⟨⟨4075197, 3024804, 1000000, 2779720, 1072417, 1000000, 1222000⟩, by simp [boxes1c], Box.mem_of (Ta := 273.1499999) (Tb := 473.15) (by norm_num) (by norm_num) (by assumption) (by assumption) ?_ ?_ (by norm_num) (by norm_num)⟩
  · norm_num; linarith
  · norm_num at *; linarith

theorem cover1n {p T : ℝ} (h1 : 273.15 ≤ T) (h2 : T ≤ 278.15) (hp0 : 0.0006 ≤ p) (hp : p ≤ 0.001) :
    ∃ B ∈ boxes1n, B.Mem (7.1 - p / 16.53) (1386 / T - 1.222) := by
  refine ⟨⟨7099952, 13, 1000000, 3806529, 45607, 1000000, 1222000⟩, by simp [boxes1n], Box.mem_of (Ta := 273.15) (Tb := 278.15) (by norm_num) (by norm_num) (by assumption) (by assumption) ?_ ?_ (by norm_num) (by norm_num)⟩
  · norm_num; linarith
  · norm_num at *; linarith

theorem cover_w5 {p : ℝ} (h1 : 100 ≤ p) (h2 : p ≤ 100) :
    ∃ B ∈ boxes_w5, B.Mem (7.1 - p / 16.53) (1386 / 293.15 - 1.222) := by
  refine ⟨⟨1050394, 1, 1000000, 3505955, 1, 1000000, 1222000⟩, by simp [boxes_w5], Box.mem_of (Ta := 293.15) (Tb := 293.15) (by norm_num) (by norm_num) (by norm_num) (by norm_num) ?_ ?_ (by norm_num) (by norm_num)⟩
  · norm_num; linarith
  · norm_num at *; linarith

theorem cover_w6 {p : ℝ} (h1 : 0.002 ≤ p) (h2 : p ≤ 0.003) :
    ∃ B ∈ boxes_w6, B.Mem (7.1 - p / 16.53) (1386 / 293.15 - 1.222) := by
  refine ⟨⟨7099849, 31, 1000000, 3505955, 1, 1000000, 1222000⟩, by simp [boxes_w6], Box.mem_of (Ta := 293.15) (Tb := 293.15) (by norm_num) (by norm_num) (by norm_num) (by norm_num) ?_ ?_ (by norm_num) (by norm_num)⟩
  · norm_num; linarith
  · norm_num at *; linarith

end If97.Iv
