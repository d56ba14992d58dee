import Verif.Lemmas.Tm.Leaf1
import Verif.Lemmas.InRange

/-! Strips covering region 1. -/

namespace If97.Tm

/-- the box |p - xc/D| ≤ xr/D, |τ - yc/E| ≤ yr/E -/
structure Strip where
  xr : Nat
  yr : Nat
  xc : Nat
  D : Nat
  yc : Nat
  E : Nat

def Strip.Mem (s : Strip) (p y : ℝ) : Prop := |p * s.D - s.xc| ≤ s.xr ∧ |y * s.E - s.yc| ≤ s.yr

def strips1 : List Strip :=
  [⟨49999695, 89602, 50000305, 1000000, 4984534, 1000000⟩,
   ⟨49999387, 83490, 50000613, 1000000, 4811444, 1000000⟩,
   ⟨49998831, 150981, 50001169, 1000000, 4576974, 1000000⟩,
   ⟨49996309, 132853, 50003691, 1000000, 4293141, 1000000⟩,
   ⟨49990029, 117806, 50009971, 1000000, 4042483, 1000000⟩,
   ⟨49976296, 105178, 50023704, 1000000, 3819501, 1000000⟩,
   ⟨49949297, 94477, 50050703, 1000000, 3619848, 1000000⟩,
   ⟨49900678, 85330, 50099322, 1000000, 3440043, 1000000⟩,
   ⟨49819268, 77450, 50180732, 1000000, 3277265, 1000000⟩,
   ⟨49690962, 70614, 50309038, 1000000, 3129203, 1000000⟩,
   ⟨49498733, 64644, 50501267, 1000000, 2993947, 1000000⟩,
   ⟨49222742, 59401, 50777258, 1000000, 2869904, 1000000⟩,
   ⟨48840473, 54770, 51159527, 1000000, 2755734, 1000000⟩,
   ⟨48326842, 50661, 51673158, 1000000, 2650304, 1000000⟩,
   ⟨47654200, 23932, 52345800, 1000000, 2575713, 1000000⟩,
   ⟨47248856, 23067, 52751144, 1000000, 2528716, 1000000⟩,
   ⟨46792092, 22248, 53207908, 1000000, 2483403, 1000000⟩,
   ⟨46279551, 10831, 53720449, 1000000, 2450327, 1000000⟩,
   ⟨46000923, 10641, 53999077, 1000000, 2428856, 1000000⟩,
   ⟨45706576, 10458, 54293424, 1000000, 2407759, 1000000⟩,
   ⟨45395867, 10278, 54604133, 1000000, 2387024, 1000000⟩,
   ⟨45068121, 5073, 54931879, 1000000, 2371674, 1000000⟩,
   ⟨44897639, 5031, 55102361, 1000000, 2361572, 1000000⟩,
   ⟨44722629, 4988, 55277371, 1000000, 2351555, 1000000⟩,
   ⟨44542994, 4946, 55457006, 1000000, 2341623, 1000000⟩,
   ⟨44358637, 2948, 55641363, 1000000, 2333730, 1000000⟩,
   ⟨44245713, 2933, 55754287, 1000000, 2327851, 1000000⟩,
   ⟨44131030, 5821, 55868970, 1000000, 2319098, 1000000⟩,
   ⟨43896292, 5763, 56103708, 1000000, 2307515, 1000000⟩,
   ⟨43654231, 3811, 56345769, 1000000, 2297943, 1000000⟩,
   ⟨43488690, 3786, 56511310, 1000000, 2290348, 1000000⟩,
   ⟨43319742, 3761, 56680258, 1000000, 2282803, 1000000⟩,
   ⟨43147323, 3736, 56852677, 1000000, 2275308, 1000000⟩,
   ⟨42971365, 3712, 57028635, 1000000, 2267862, 1000000⟩,
   ⟨42791799, 1847, 57208201, 1000000, 2262305, 1000000⟩,
   ⟨42700640, 1841, 57299360, 1000000, 2258618, 1000000⟩,
   ⟨42608551, 1835, 57391449, 1000000, 2254943, 1000000⟩,
   ⟨42515524, 1829, 57484476, 1000000, 2251281, 1000000⟩,
   ⟨42421546, 1823, 57578454, 1000000, 2247630, 1000000⟩,
   ⟨42326610, 1817, 57673390, 1000000, 2243991, 1000000⟩,
   ⟨42230704, 1812, 57769296, 1000000, 2240364, 1000000⟩,
   ⟨42133817, 904, 57866183, 1000000, 2237650, 1000000⟩,
   ⟨42085003, 902, 57914997, 1000000, 2235845, 1000000⟩,
   ⟨42035939, 901, 57964061, 1000000, 2234043, 1000000⟩,
   ⟨41986625, 899, 58013375, 1000000, 2232244, 1000000⟩,
   ⟨41937059, 898, 58062941, 1000000, 2230448, 1000000⟩,
   ⟨41887239, 897, 58112761, 1000000, 2228655, 1000000⟩,
   ⟨41837165, 895, 58162835, 1000000, 2226864, 1000000⟩,
   ⟨41786834, 447, 58213166, 1000000, 2225523, 1000000⟩,
   ⟨41761572, 447, 58238428, 1000000, 2224630, 1000000⟩]

theorem Strip.mem_of {s : Strip} {Ts Ta Tb T p pl ph : ℝ} (hs : 0 < Ts) (ha : 0 < Ta) (h1 : Ta ≤ T) (h2 : T ≤ Tb)
    (hp1 : pl ≤ p) (hp2 : p ≤ ph) (hx1 : (s.xc : ℝ) - s.xr ≤ pl * s.D) (hx2 : ph * s.D ≤ (s.xc : ℝ) + s.xr)
    (hy1 : ((s.yc : ℝ) - s.yr) ≤ Ts / Tb * s.E) (hy2 : Ts / Ta * s.E ≤ ((s.yc : ℝ) + s.yr)) :
    s.Mem p (Ts / T) := by
  have hT : 0 < T := lt_of_lt_of_le ha h1
  have e1 : Ts / T ≤ Ts / Ta := div_le_div_of_nonneg_left hs.le ha h1
  have e2 : Ts / Tb ≤ Ts / T := div_le_div_of_nonneg_left hs.le hT h2
  have f1 := mul_le_mul_of_nonneg_right e1 (Nat.cast_nonneg (α := ℝ) s.E)
  have f2 := mul_le_mul_of_nonneg_right e2 (Nat.cast_nonneg (α := ℝ) s.E)
  have f3 := mul_le_mul_of_nonneg_right hp1 (Nat.cast_nonneg (α := ℝ) s.D)
  have f4 := mul_le_mul_of_nonneg_right hp2 (Nat.cast_nonneg (α := ℝ) s.D)
  constructor <;> rw [abs_le] <;> constructor <;> linarith

theorem lo1_0 : 61 / 100000 + 1e-7 < Sat.psat 273.1499999 := by
  refine lt_trans ?_ (Sat.lt_psat (b := 0.1572344) (by norm_num) ?_ (by norm_num) ?_)
  · norm_num
  · unfold Sat.qA Sat.qB Sat.th; norm_num
  · unfold Sat.Qf Sat.qA Sat.qB Sat.qC Sat.th; norm_num
theorem lo1_1 : 613 / 500000 + 1e-7 < Sat.psat 283.15 := by
  refine lt_trans ?_ (Sat.lt_psat (b := 0.1872041) (by norm_num) ?_ (by norm_num) ?_)
  · norm_num
  · unfold Sat.qA Sat.qB Sat.th; norm_num
  · unfold Sat.Qf Sat.qA Sat.qB Sat.qC Sat.th; norm_num
theorem lo1_2 : 1169 / 500000 + 1e-7 < Sat.psat 293.15 := by
  refine lt_trans ?_ (Sat.lt_psat (b := 0.2199211) (by norm_num) ?_ (by norm_num) ?_)
  · norm_num
  · unfold Sat.qA Sat.qB Sat.th; norm_num
  · unfold Sat.Qf Sat.qA Sat.qB Sat.qC Sat.th; norm_num
theorem lo1_3 : 3691 / 500000 + 1e-7 < Sat.psat 313.15 := by
  refine lt_trans ?_ (Sat.lt_psat (b := 0.2931424) (by norm_num) ?_ (by norm_num) ?_)
  · norm_num
  · unfold Sat.qA Sat.qB Sat.th; norm_num
  · unfold Sat.Qf Sat.qA Sat.qB Sat.qC Sat.th; norm_num
theorem lo1_4 : 9971 / 500000 + 1e-7 < Sat.psat 333.15 := by
  refine lt_trans ?_ (Sat.lt_psat (b := 0.3758049) (by norm_num) ?_ (by norm_num) ?_)
  · norm_num
  · unfold Sat.qA Sat.qB Sat.th; norm_num
  · unfold Sat.Qf Sat.qA Sat.qB Sat.qC Sat.th; norm_num
theorem lo1_5 : 2963 / 62500 + 1e-7 < Sat.psat 353.15 := by
  refine lt_trans ?_ (Sat.lt_psat (b := 0.4666355) (by norm_num) ?_ (by norm_num) ?_)
  · norm_num
  · unfold Sat.qA Sat.qB Sat.th; norm_num
  · unfold Sat.Qf Sat.qA Sat.qB Sat.qC Sat.th; norm_num
theorem lo1_6 : 50703 / 500000 + 1e-7 < Sat.psat 373.15 := by
  refine lt_trans ?_ (Sat.lt_psat (b := 0.5643237) (by norm_num) ?_ (by norm_num) ?_)
  · norm_num
  · unfold Sat.qA Sat.qB Sat.th; norm_num
  · unfold Sat.Qf Sat.qA Sat.qB Sat.qC Sat.th; norm_num
theorem lo1_7 : 49661 / 250000 + 1e-7 < Sat.psat 393.15 := by
  refine lt_trans ?_ (Sat.lt_psat (b := 0.6676212) (by norm_num) ?_ (by norm_num) ?_)
  · norm_num
  · unfold Sat.qA Sat.qB Sat.th; norm_num
  · unfold Sat.Qf Sat.qA Sat.qB Sat.qC Sat.th; norm_num
theorem lo1_8 : 45183 / 125000 + 1e-7 < Sat.psat 413.15 := by
  refine lt_trans ?_ (Sat.lt_psat (b := 0.775402) (by norm_num) ?_ (by norm_num) ?_)
  · norm_num
  · unfold Sat.qA Sat.qB Sat.th; norm_num
  · unfold Sat.Qf Sat.qA Sat.qB Sat.qC Sat.th; norm_num
theorem lo1_9 : 154519 / 250000 + 1e-7 < Sat.psat 433.15 := by
  refine lt_trans ?_ (Sat.lt_psat (b := 0.8866886) (by norm_num) ?_ (by norm_num) ?_)
  · norm_num
  · unfold Sat.qA Sat.qB Sat.th; norm_num
  · unfold Sat.Qf Sat.qA Sat.qB Sat.qC Sat.th; norm_num
theorem lo1_10 : 501267 / 500000 + 1e-7 < Sat.psat 453.15 := by
  refine lt_trans ?_ (Sat.lt_psat (b := 1.0006569) (by norm_num) ?_ (by norm_num) ?_)
  · norm_num
  · unfold Sat.qA Sat.qB Sat.th; norm_num
  · unfold Sat.Qf Sat.qA Sat.qB Sat.qC Sat.th; norm_num
theorem lo1_11 : 388629 / 250000 + 1e-7 < Sat.psat 473.15 := by
  refine lt_trans ?_ (Sat.lt_psat (b := 1.1166298) (by norm_num) ?_ (by norm_num) ?_)
  · norm_num
  · unfold Sat.qA Sat.qB Sat.th; norm_num
  · unfold Sat.Qf Sat.qA Sat.qB Sat.qC Sat.th; norm_num
theorem lo1_12 : 1159527 / 500000 + 1e-7 < Sat.psat 493.15 := by
  refine lt_trans ?_ (Sat.lt_psat (b := 1.2340655) (by norm_num) ?_ (by norm_num) ?_)
  · norm_num
  · unfold Sat.qA Sat.qB Sat.th; norm_num
  · unfold Sat.Qf Sat.qA Sat.qB Sat.qC Sat.th; norm_num
theorem lo1_13 : 836579 / 250000 + 1e-7 < Sat.psat 513.15 := by
  refine lt_trans ?_ (Sat.lt_psat (b := 1.3525464) (by norm_num) ?_ (by norm_num) ?_)
  · norm_num
  · unfold Sat.qA Sat.qB Sat.th; norm_num
  · unfold Sat.Qf Sat.qA Sat.qB Sat.qC Sat.th; norm_num
theorem lo1_14 : 11729 / 2500 + 1e-7 < Sat.psat 533.15 := by
  refine lt_trans ?_ (Sat.lt_psat (b := 1.4717725) (by norm_num) ?_ (by norm_num) ?_)
  · norm_num
  · unfold Sat.qA Sat.qB Sat.th; norm_num
  · unfold Sat.Qf Sat.qA Sat.qB Sat.qC Sat.th; norm_num
theorem lo1_15 : 343893 / 62500 + 1e-7 < Sat.psat 543.15 := by
  refine lt_trans ?_ (Sat.lt_psat (b := 1.5316032) (by norm_num) ?_ (by norm_num) ?_)
  · norm_num
  · unfold Sat.qA Sat.qB Sat.th; norm_num
  · unfold Sat.Qf Sat.qA Sat.qB Sat.qC Sat.th; norm_num
theorem lo1_16 : 801977 / 125000 + 1e-7 < Sat.psat 553.15 := by
  refine lt_trans ?_ (Sat.lt_psat (b := 1.5915615) (by norm_num) ?_ (by norm_num) ?_)
  · norm_num
  · unfold Sat.qA Sat.qB Sat.th; norm_num
  · unfold Sat.Qf Sat.qA Sat.qB Sat.qC Sat.th; norm_num
theorem lo1_17 : 3720449 / 500000 + 1e-7 < Sat.psat 563.15 := by
  refine lt_trans ?_ (Sat.lt_psat (b := 1.6516452) (by norm_num) ?_ (by norm_num) ?_)
  · norm_num
  · unfold Sat.qA Sat.qB Sat.th; norm_num
  · unfold Sat.Qf Sat.qA Sat.qB Sat.qC Sat.th; norm_num
theorem lo1_18 : 3999077 / 500000 + 1e-7 < Sat.psat 568.15 := by
  refine lt_trans ?_ (Sat.lt_psat (b := 1.6817362) (by norm_num) ?_ (by norm_num) ?_)
  · norm_num
  · unfold Sat.qA Sat.qB Sat.th; norm_num
  · unfold Sat.Qf Sat.qA Sat.qB Sat.qC Sat.th; norm_num
theorem lo1_19 : 268339 / 31250 + 1e-7 < Sat.psat 573.15 := by
  refine lt_trans ?_ (Sat.lt_psat (b := 1.7118625) (by norm_num) ?_ (by norm_num) ?_)
  · norm_num
  · unfold Sat.qA Sat.qB Sat.th; norm_num
  · unfold Sat.Qf Sat.qA Sat.qB Sat.qC Sat.th; norm_num
theorem lo1_20 : 4604133 / 500000 + 1e-7 < Sat.psat 578.15 := by
  refine lt_trans ?_ (Sat.lt_psat (b := 1.7420271) (by norm_num) ?_ (by norm_num) ?_)
  · norm_num
  · unfold Sat.qA Sat.qB Sat.th; norm_num
  · unfold Sat.Qf Sat.qA Sat.qB Sat.qC Sat.th; norm_num
theorem lo1_21 : 4931879 / 500000 + 1e-7 < Sat.psat 583.15 := by
  refine lt_trans ?_ (Sat.lt_psat (b := 1.7722338) (by norm_num) ?_ (by norm_num) ?_)
  · norm_num
  · unfold Sat.qA Sat.qB Sat.th; norm_num
  · unfold Sat.Qf Sat.qA Sat.qB Sat.qC Sat.th; norm_num
theorem lo1_22 : 5102361 / 500000 + 1e-7 < Sat.psat 585.65 := by
  refine lt_trans ?_ (Sat.lt_psat (b := 1.7873546) (by norm_num) ?_ (by norm_num) ?_)
  · norm_num
  · unfold Sat.qA Sat.qB Sat.th; norm_num
  · unfold Sat.Qf Sat.qA Sat.qB Sat.qC Sat.th; norm_num
theorem lo1_23 : 5277371 / 500000 + 1e-7 < Sat.psat 588.15 := by
  refine lt_trans ?_ (Sat.lt_psat (b := 1.8024878) (by norm_num) ?_ (by norm_num) ?_)
  · norm_num
  · unfold Sat.qA Sat.qB Sat.th; norm_num
  · unfold Sat.Qf Sat.qA Sat.qB Sat.qC Sat.th; norm_num
theorem lo1_24 : 2728503 / 250000 + 1e-7 < Sat.psat 590.65 := by
  refine lt_trans ?_ (Sat.lt_psat (b := 1.8176344) (by norm_num) ?_ (by norm_num) ?_)
  · norm_num
  · unfold Sat.qA Sat.qB Sat.th; norm_num
  · unfold Sat.Qf Sat.qA Sat.qB Sat.qC Sat.th; norm_num
theorem lo1_25 : 5641363 / 500000 + 1e-7 < Sat.psat 593.15 := by
  refine lt_trans ?_ (Sat.lt_psat (b := 1.8327952) (by norm_num) ?_ (by norm_num) ?_)
  · norm_num
  · unfold Sat.qA Sat.qB Sat.th; norm_num
  · unfold Sat.Qf Sat.qA Sat.qB Sat.qC Sat.th; norm_num
theorem lo1_26 : 5754287 / 500000 + 1e-7 < Sat.psat 594.65 := by
  refine lt_trans ?_ (Sat.lt_psat (b := 1.8418989) (by norm_num) ?_ (by norm_num) ?_)
  · norm_num
  · unfold Sat.qA Sat.qB Sat.th; norm_num
  · unfold Sat.Qf Sat.qA Sat.qB Sat.qC Sat.th; norm_num
theorem lo1_27 : 586897 / 50000 + 1e-7 < Sat.psat 596.15 := by
  refine lt_trans ?_ (Sat.lt_psat (b := 1.8510084) (by norm_num) ?_ (by norm_num) ?_)
  · norm_num
  · unfold Sat.qA Sat.qB Sat.th; norm_num
  · unfold Sat.Qf Sat.qA Sat.qB Sat.qC Sat.th; norm_num
theorem lo1_28 : 1525927 / 125000 + 1e-7 < Sat.psat 599.15 := by
  refine lt_trans ?_ (Sat.lt_psat (b := 1.8692455) (by norm_num) ?_ (by norm_num) ?_)
  · norm_num
  · unfold Sat.qA Sat.qB Sat.th; norm_num
  · unfold Sat.Qf Sat.qA Sat.qB Sat.qC Sat.th; norm_num
theorem lo1_29 : 6345769 / 500000 + 1e-7 < Sat.psat 602.15 := by
  refine lt_trans ?_ (Sat.lt_psat (b := 1.8875088) (by norm_num) ?_ (by norm_num) ?_)
  · norm_num
  · unfold Sat.qA Sat.qB Sat.th; norm_num
  · unfold Sat.Qf Sat.qA Sat.qB Sat.qC Sat.th; norm_num
theorem lo1_30 : 651131 / 50000 + 1e-7 < Sat.psat 604.15 := by
  refine lt_trans ?_ (Sat.lt_psat (b := 1.8997) (by norm_num) ?_ (by norm_num) ?_)
  · norm_num
  · unfold Sat.qA Sat.qB Sat.th; norm_num
  · unfold Sat.Qf Sat.qA Sat.qB Sat.qC Sat.th; norm_num
theorem lo1_31 : 3340129 / 250000 + 1e-7 < Sat.psat 606.15 := by
  refine lt_trans ?_ (Sat.lt_psat (b := 1.9119047) (by norm_num) ?_ (by norm_num) ?_)
  · norm_num
  · unfold Sat.qA Sat.qB Sat.th; norm_num
  · unfold Sat.Qf Sat.qA Sat.qB Sat.qC Sat.th; norm_num
theorem lo1_32 : 6852677 / 500000 + 1e-7 < Sat.psat 608.15 := by
  refine lt_trans ?_ (Sat.lt_psat (b := 1.9241237) (by norm_num) ?_ (by norm_num) ?_)
  · norm_num
  · unfold Sat.qA Sat.qB Sat.th; norm_num
  · unfold Sat.Qf Sat.qA Sat.qB Sat.qC Sat.th; norm_num
theorem lo1_33 : 1405727 / 100000 + 1e-7 < Sat.psat 610.15 := by
  refine lt_trans ?_ (Sat.lt_psat (b := 1.9363581) (by norm_num) ?_ (by norm_num) ?_)
  · norm_num
  · unfold Sat.qA Sat.qB Sat.th; norm_num
  · unfold Sat.Qf Sat.qA Sat.qB Sat.qC Sat.th; norm_num
theorem lo1_34 : 7208201 / 500000 + 1e-7 < Sat.psat 612.15 := by
  refine lt_trans ?_ (Sat.lt_psat (b := 1.9486087) (by norm_num) ?_ (by norm_num) ?_)
  · norm_num
  · unfold Sat.qA Sat.qB Sat.th; norm_num
  · unfold Sat.Qf Sat.qA Sat.qB Sat.qC Sat.th; norm_num
theorem lo1_35 : 45621 / 3125 + 1e-7 < Sat.psat 613.15 := by
  refine lt_trans ?_ (Sat.lt_psat (b := 1.9547405) (by norm_num) ?_ (by norm_num) ?_)
  · norm_num
  · unfold Sat.qA Sat.qB Sat.th; norm_num
  · unfold Sat.Qf Sat.qA Sat.qB Sat.qC Sat.th; norm_num
theorem lo1_36 : 7391449 / 500000 + 1e-7 < Sat.psat 614.15 := by
  refine lt_trans ?_ (Sat.lt_psat (b := 1.9608768) (by norm_num) ?_ (by norm_num) ?_)
  · norm_num
  · unfold Sat.qA Sat.qB Sat.th; norm_num
  · unfold Sat.Qf Sat.qA Sat.qB Sat.qC Sat.th; norm_num
theorem lo1_37 : 1871119 / 125000 + 1e-7 < Sat.psat 615.15 := by
  refine lt_trans ?_ (Sat.lt_psat (b := 1.9670177) (by norm_num) ?_ (by norm_num) ?_)
  · norm_num
  · unfold Sat.qA Sat.qB Sat.th; norm_num
  · unfold Sat.Qf Sat.qA Sat.qB Sat.qC Sat.th; norm_num
theorem lo1_38 : 3789227 / 250000 + 1e-7 < Sat.psat 616.15 := by
  refine lt_trans ?_ (Sat.lt_psat (b := 1.9731635) (by norm_num) ?_ (by norm_num) ?_)
  · norm_num
  · unfold Sat.qA Sat.qB Sat.th; norm_num
  · unfold Sat.Qf Sat.qA Sat.qB Sat.qC Sat.th; norm_num
theorem lo1_39 : 767339 / 50000 + 1e-7 < Sat.psat 617.15 := by
  refine lt_trans ?_ (Sat.lt_psat (b := 1.9793142) (by norm_num) ?_ (by norm_num) ?_)
  · norm_num
  · unfold Sat.qA Sat.qB Sat.th; norm_num
  · unfold Sat.Qf Sat.qA Sat.qB Sat.qC Sat.th; norm_num
theorem lo1_40 : 485581 / 31250 + 1e-7 < Sat.psat 618.15 := by
  refine lt_trans ?_ (Sat.lt_psat (b := 1.9854701) (by norm_num) ?_ (by norm_num) ?_)
  · norm_num
  · unfold Sat.qA Sat.qB Sat.th; norm_num
  · unfold Sat.Qf Sat.qA Sat.qB Sat.qC Sat.th; norm_num
theorem lo1_41 : 7866183 / 500000 + 1e-7 < Sat.psat 619.15 := by
  refine lt_trans ?_ (Sat.lt_psat (b := 1.9916312) (by norm_num) ?_ (by norm_num) ?_)
  · norm_num
  · unfold Sat.qA Sat.qB Sat.th; norm_num
  · unfold Sat.Qf Sat.qA Sat.qB Sat.qC Sat.th; norm_num
theorem lo1_42 : 7914997 / 500000 + 1e-7 < Sat.psat 619.65 := by
  refine lt_trans ?_ (Sat.lt_psat (b := 1.9947139) (by norm_num) ?_ (by norm_num) ?_)
  · norm_num
  · unfold Sat.qA Sat.qB Sat.th; norm_num
  · unfold Sat.Qf Sat.qA Sat.qB Sat.qC Sat.th; norm_num
theorem lo1_43 : 7964061 / 500000 + 1e-7 < Sat.psat 620.15 := by
  refine lt_trans ?_ (Sat.lt_psat (b := 1.9977979) (by norm_num) ?_ (by norm_num) ?_)
  · norm_num
  · unfold Sat.qA Sat.qB Sat.th; norm_num
  · unfold Sat.Qf Sat.qA Sat.qB Sat.qC Sat.th; norm_num
theorem lo1_44 : 64107 / 4000 + 1e-7 < Sat.psat 620.65 := by
  refine lt_trans ?_ (Sat.lt_psat (b := 2.0008834) (by norm_num) ?_ (by norm_num) ?_)
  · norm_num
  · unfold Sat.qA Sat.qB Sat.th; norm_num
  · unfold Sat.Qf Sat.qA Sat.qB Sat.qC Sat.th; norm_num
theorem lo1_45 : 8062941 / 500000 + 1e-7 < Sat.psat 621.15 := by
  refine lt_trans ?_ (Sat.lt_psat (b := 2.0039703) (by norm_num) ?_ (by norm_num) ?_)
  · norm_num
  · unfold Sat.qA Sat.qB Sat.th; norm_num
  · unfold Sat.Qf Sat.qA Sat.qB Sat.qC Sat.th; norm_num
theorem lo1_46 : 8112761 / 500000 + 1e-7 < Sat.psat 621.65 := by
  refine lt_trans ?_ (Sat.lt_psat (b := 2.0070587) (by norm_num) ?_ (by norm_num) ?_)
  · norm_num
  · unfold Sat.qA Sat.qB Sat.th; norm_num
  · unfold Sat.Qf Sat.qA Sat.qB Sat.qC Sat.th; norm_num
theorem lo1_47 : 1632567 / 100000 + 1e-7 < Sat.psat 622.15 := by
  refine lt_trans ?_ (Sat.lt_psat (b := 2.0101487) (by norm_num) ?_ (by norm_num) ?_)
  · norm_num
  · unfold Sat.qA Sat.qB Sat.th; norm_num
  · unfold Sat.Qf Sat.qA Sat.qB Sat.qC Sat.th; norm_num
theorem lo1_48 : 4106583 / 250000 + 1e-7 < Sat.psat 622.65 := by
  refine lt_trans ?_ (Sat.lt_psat (b := 2.0132401) (by norm_num) ?_ (by norm_num) ?_)
  · norm_num
  · unfold Sat.qA Sat.qB Sat.th; norm_num
  · unfold Sat.Qf Sat.qA Sat.qB Sat.qC Sat.th; norm_num
theorem lo1_49 : 2059607 / 125000 + 1e-7 < Sat.psat 622.9 := by
  refine lt_trans ?_ (Sat.lt_psat (b := 2.0147864) (by norm_num) ?_ (by norm_num) ?_)
  · norm_num
  · unfold Sat.qA Sat.qB Sat.th; norm_num
  · unfold Sat.Qf Sat.qA Sat.qB Sat.qC Sat.th; norm_num

theorem c1_0 {p T : ℝ} (h1 : 273.1499999 ≤ T) (h2 : T ≤ 283.15) (hs : Sat.psat T ≤ p + 1e-7) (h3 : p ≤ 100) :
    ∃ s ∈ strips1, s.Mem p (1386 / T) := by
  have k : Sat.psat 273.1499999 ≤ Sat.psat T := Iv.psat_mono (by norm_num) h1 (by norm_num at *; linarith)
  have k0 := lo1_0
  exact ⟨strips1[0], List.getElem_mem _, Strip.mem_of (pl := 61 / 100000) (by norm_num) (by norm_num) h1 h2 (by linarith) h3
    (by norm_num [strips1]) (by norm_num [strips1]) (by norm_num [strips1]) (by norm_num [strips1])⟩
theorem c1_1 {p T : ℝ} (h1 : 283.15 ≤ T) (h2 : T ≤ 293.15) (hs : Sat.psat T ≤ p + 1e-7) (h3 : p ≤ 100) :
    ∃ s ∈ strips1, s.Mem p (1386 / T) := by
  have k : Sat.psat 283.15 ≤ Sat.psat T := Iv.psat_mono (by norm_num) h1 (by norm_num at *; linarith)
  have k0 := lo1_1
  exact ⟨strips1[1], List.getElem_mem _, Strip.mem_of (pl := 613 / 500000) (by norm_num) (by norm_num) h1 h2 (by linarith) h3
    (by norm_num [strips1]) (by norm_num [strips1]) (by norm_num [strips1]) (by norm_num [strips1])⟩
theorem c1_2 {p T : ℝ} (h1 : 293.15 ≤ T) (h2 : T ≤ 313.15) (hs : Sat.psat T ≤ p + 1e-7) (h3 : p ≤ 100) :
    ∃ s ∈ strips1, s.Mem p (1386 / T) := by
  have k : Sat.psat 293.15 ≤ Sat.psat T := Iv.psat_mono (by norm_num) h1 (by norm_num at *; linarith)
  have k0 := lo1_2
  exact ⟨strips1[2], List.getElem_mem _, Strip.mem_of (pl := 1169 / 500000) (by norm_num) (by norm_num) h1 h2 (by linarith) h3
    (by norm_num [strips1]) (by norm_num [strips1]) (by norm_num [strips1]) (by norm_num [strips1])⟩
theorem c1_3 {p T : ℝ} (h1 : 313.15 ≤ T) (h2 : T ≤ 333.15) (hs : Sat.psat T ≤ p + 1e-7) (h3 : p ≤ 100) :
    ∃ s ∈ strips1, s.Mem p (1386 / T) := by
  have k : Sat.psat 313.15 ≤ Sat.psat T := Iv.psat_mono (by norm_num) h1 (by norm_num at *; linarith)
  have k0 := lo1_3
  exact ⟨strips1[3], List.getElem_mem _, Strip.mem_of (pl := 3691 / 500000) (by norm_num) (by norm_num) h1 h2 (by linarith) h3
    (by norm_num [strips1]) (by norm_num [strips1]) (by norm_num [strips1]) (by norm_num [strips1])⟩
theorem c1_4 {p T : ℝ} (h1 : 333.15 ≤ T) (h2 : T ≤ 353.15) (hs : Sat.psat T ≤ p + 1e-7) (h3 : p ≤ 100) :
    ∃ s ∈ strips1, s.Mem p (1386 / T) := by
  have k : Sat.psat 333.15 ≤ Sat.psat T := Iv.psat_mono (by norm_num) h1 (by norm_num at *; linarith)
  have k0 := lo1_4
  exact ⟨strips1[4], List.getElem_mem _, Strip.mem_of (pl := 9971 / 500000) (by norm_num) (by norm_num) h1 h2 (by linarith) h3
    (by norm_num [strips1]) (by norm_num [strips1]) (by norm_num [strips1]) (by norm_num [strips1])⟩
theorem c1_5 {p T : ℝ} (h1 : 353.15 ≤ T) (h2 : T ≤ 373.15) (hs : Sat.psat T ≤ p + 1e-7) (h3 : p ≤ 100) :
    ∃ s ∈ strips1, s.Mem p (1386 / T) := by
  have k : Sat.psat 353.15 ≤ Sat.psat T := Iv.psat_mono (by norm_num) h1 (by norm_num at *; linarith)
  have k0 := lo1_5
  exact ⟨strips1[5], List.getElem_mem _, Strip.mem_of (pl := 2963 / 62500) (by norm_num) (by norm_num) h1 h2 (by linarith) h3
    (by norm_num [strips1]) (by norm_num [strips1]) (by norm_num [strips1]) (by norm_num [strips1])⟩
theorem c1_6 {p T : ℝ} (h1 : 373.15 ≤ T) (h2 : T ≤ 393.15) (hs : Sat.psat T ≤ p + 1e-7) (h3 : p ≤ 100) :
    ∃ s ∈ strips1, s.Mem p (1386 / T) := by
  have k : Sat.psat 373.15 ≤ Sat.psat T := Iv.psat_mono (by norm_num) h1 (by norm_num at *; linarith)
  have k0 := lo1_6
  exact ⟨strips1[6], List.getElem_mem _, Strip.mem_of (pl := 50703 / 500000) (by norm_num) (by norm_num) h1 h2 (by linarith) h3
    (by norm_num [strips1]) (by norm_num [strips1]) (by norm_num [strips1]) (by norm_num [strips1])⟩
theorem c1_7 {p T : ℝ} (h1 : 393.15 ≤ T) (h2 : T ≤ 413.15) (hs : Sat.psat T ≤ p + 1e-7) (h3 : p ≤ 100) :
    ∃ s ∈ strips1, s.Mem p (1386 / T) := by
  have k : Sat.psat 393.15 ≤ Sat.psat T := Iv.psat_mono (by norm_num) h1 (by norm_num at *; linarith)
  have k0 := lo1_7
  exact ⟨strips1[7], List.getElem_mem _, Strip.mem_of (pl := 49661 / 250000) (by norm_num) (by norm_num) h1 h2 (by linarith) h3
    (by norm_num [strips1]) (by norm_num [strips1]) (by norm_num [strips1]) (by norm_num [strips1])⟩
theorem c1_8 {p T : ℝ} (h1 : 413.15 ≤ T) (h2 : T ≤ 433.15) (hs : Sat.psat T ≤ p + 1e-7) (h3 : p ≤ 100) :
    ∃ s ∈ strips1, s.Mem p (1386 / T) := by
  have k : Sat.psat 413.15 ≤ Sat.psat T := Iv.psat_mono (by norm_num) h1 (by norm_num at *; linarith)
  have k0 := lo1_8
  exact ⟨strips1[8], List.getElem_mem _, Strip.mem_of (pl := 45183 / 125000) (by norm_num) (by norm_num) h1 h2 (by linarith) h3
    (by norm_num [strips1]) (by norm_num [strips1]) (by norm_num [strips1]) (by norm_num [strips1])⟩
theorem c1_9 {p T : ℝ} (h1 : 433.15 ≤ T) (h2 : T ≤ 453.15) (hs : Sat.psat T ≤ p + 1e-7) (h3 : p ≤ 100) :
    ∃ s ∈ strips1, s.Mem p (1386 / T) := by
  have k : Sat.psat 433.15 ≤ Sat.psat T := Iv.psat_mono (by norm_num) h1 (by norm_num at *; linarith)
  have k0 := lo1_9
  exact ⟨strips1[9], List.getElem_mem _, Strip.mem_of (pl := 154519 / 250000) (by norm_num) (by norm_num) h1 h2 (by linarith) h3
    (by norm_num [strips1]) (by norm_num [strips1]) (by norm_num [strips1]) (by norm_num [strips1])⟩
theorem c1_10 {p T : ℝ} (h1 : 453.15 ≤ T) (h2 : T ≤ 473.15) (hs : Sat.psat T ≤ p + 1e-7) (h3 : p ≤ 100) :
    ∃ s ∈ strips1, s.Mem p (1386 / T) := by
  have k : Sat.psat 453.15 ≤ Sat.psat T := Iv.psat_mono (by norm_num) h1 (by norm_num at *; linarith)
  have k0 := lo1_10
  exact ⟨strips1[10], List.getElem_mem _, Strip.mem_of (pl := 501267 / 500000) (by norm_num) (by norm_num) h1 h2 (by linarith) h3
    (by norm_num [strips1]) (by norm_num [strips1]) (by norm_num [strips1]) (by norm_num [strips1])⟩
theorem c1_11 {p T : ℝ} (h1 : 473.15 ≤ T) (h2 : T ≤ 493.15) (hs : Sat.psat T ≤ p + 1e-7) (h3 : p ≤ 100) :
    ∃ s ∈ strips1, s.Mem p (1386 / T) := by
  have k : Sat.psat 473.15 ≤ Sat.psat T := Iv.psat_mono (by norm_num) h1 (by norm_num at *; linarith)
  have k0 := lo1_11
  exact ⟨strips1[11], List.getElem_mem _, Strip.mem_of (pl := 388629 / 250000) (by norm_num) (by norm_num) h1 h2 (by linarith) h3
    (by norm_num [strips1]) (by norm_num [strips1]) (by norm_num [strips1]) (by norm_num [strips1])⟩
theorem c1_12 {p T : ℝ} (h1 : 493.15 ≤ T) (h2 : T ≤ 513.15) (hs : Sat.psat T ≤ p + 1e-7) (h3 : p ≤ 100) :
    ∃ s ∈ strips1, s.Mem p (1386 / T) := by
  have k : Sat.psat 493.15 ≤ Sat.psat T := Iv.psat_mono (by norm_num) h1 (by norm_num at *; linarith)
  have k0 := lo1_12
  exact ⟨strips1[12], List.getElem_mem _, Strip.mem_of (pl := 1159527 / 500000) (by norm_num) (by norm_num) h1 h2 (by linarith) h3
    (by norm_num [strips1]) (by norm_num [strips1]) (by norm_num [strips1]) (by norm_num [strips1])⟩
theorem c1_13 {p T : ℝ} (h1 : 513.15 ≤ T) (h2 : T ≤ 533.15) (hs : Sat.psat T ≤ p + 1e-7) (h3 : p ≤ 100) :
    ∃ s ∈ strips1, s.Mem p (1386 / T) := by
  have k : Sat.psat 513.15 ≤ Sat.psat T := Iv.psat_mono (by norm_num) h1 (by norm_num at *; linarith)
  have k0 := lo1_13
  exact ⟨strips1[13], List.getElem_mem _, Strip.mem_of (pl := 836579 / 250000) (by norm_num) (by norm_num) h1 h2 (by linarith) h3
    (by norm_num [strips1]) (by norm_num [strips1]) (by norm_num [strips1]) (by norm_num [strips1])⟩
theorem c1_14 {p T : ℝ} (h1 : 533.15 ≤ T) (h2 : T ≤ 543.15) (hs : Sat.psat T ≤ p + 1e-7) (h3 : p ≤ 100) :
    ∃ s ∈ strips1, s.Mem p (1386 / T) := by
  have k : Sat.psat 533.15 ≤ Sat.psat T := Iv.psat_mono (by norm_num) h1 (by norm_num at *; linarith)
  have k0 := lo1_14
  exact ⟨strips1[14], List.getElem_mem _, Strip.mem_of (pl := 11729 / 2500) (by norm_num) (by norm_num) h1 h2 (by linarith) h3
    (by norm_num [strips1]) (by norm_num [strips1]) (by norm_num [strips1]) (by norm_num [strips1])⟩
theorem c1_15 {p T : ℝ} (h1 : 543.15 ≤ T) (h2 : T ≤ 553.15) (hs : Sat.psat T ≤ p + 1e-7) (h3 : p ≤ 100) :
    ∃ s ∈ strips1, s.Mem p (1386 / T) := by
  have k : Sat.psat 543.15 ≤ Sat.psat T := Iv.psat_mono (by norm_num) h1 (by norm_num at *; linarith)
  have k0 := lo1_15
  exact ⟨strips1[15], List.getElem_mem _, Strip.mem_of (pl := 343893 / 62500) (by norm_num) (by norm_num) h1 h2 (by linarith) h3
    (by norm_num [strips1]) (by norm_num [strips1]) (by norm_num [strips1]) (by norm_num [strips1])⟩
theorem c1_16 {p T : ℝ} (h1 : 553.15 ≤ T) (h2 : T ≤ 563.15) (hs : Sat.psat T ≤ p + 1e-7) (h3 : p ≤ 100) :
    ∃ s ∈ strips1, s.Mem p (1386 / T) := by
  have k : Sat.psat 553.15 ≤ Sat.psat T := Iv.psat_mono (by norm_num) h1 (by norm_num at *; linarith)
  have k0 := lo1_16
  exact ⟨strips1[16], List.getElem_mem _, Strip.mem_of (pl := 801977 / 125000) (by norm_num) (by norm_num) h1 h2 (by linarith) h3
    (by norm_num [strips1]) (by norm_num [strips1]) (by norm_num [strips1]) (by norm_num [strips1])⟩
theorem c1_17 {p T : ℝ} (h1 : 563.15 ≤ T) (h2 : T ≤ 568.15) (hs : Sat.psat T ≤ p + 1e-7) (h3 : p ≤ 100) :
    ∃ s ∈ strips1, s.Mem p (1386 / T) := by
  have k : Sat.psat 563.15 ≤ Sat.psat T := Iv.psat_mono (by norm_num) h1 (by norm_num at *; linarith)
  have k0 := lo1_17
  exact ⟨strips1[17], List.getElem_mem _, Strip.mem_of (pl := 3720449 / 500000) (by norm_num) (by norm_num) h1 h2 (by linarith) h3
    (by norm_num [strips1]) (by norm_num [strips1]) (by norm_num [strips1]) (by norm_num [strips1])⟩
theorem c1_18 {p T : ℝ} (h1 : 568.15 ≤ T) (h2 : T ≤ 573.15) (hs : Sat.psat T ≤ p + 1e-7) (h3 : p ≤ 100) :
    ∃ s ∈ strips1, s.Mem p (1386 / T) := by
  have k : Sat.psat 568.15 ≤ Sat.psat T := Iv.psat_mono (by norm_num) h1 (by norm_num at *; linarith)
  have k0 := lo1_18
  exact ⟨strips1[18], List.getElem_mem _, Strip.mem_of (pl := 3999077 / 500000) (by norm_num) (by norm_num) h1 h2 (by linarith) h3
    (by norm_num [strips1]) (by norm_num [strips1]) (by norm_num [strips1]) (by norm_num [strips1])⟩
theorem c1_19 {p T : ℝ} (h1 : 573.15 ≤ T) (h2 : T ≤ 578.15) (hs : Sat.psat T ≤ p + 1e-7) (h3 : p ≤ 100) :
    ∃ s ∈ strips1, s.Mem p (1386 / T) := by
  have k : Sat.psat 573.15 ≤ Sat.psat T := Iv.psat_mono (by norm_num) h1 (by norm_num at *; linarith)
  have k0 := lo1_19
  exact ⟨strips1[19], List.getElem_mem _, Strip.mem_of (pl := 268339 / 31250) (by norm_num) (by norm_num) h1 h2 (by linarith) h3
    (by norm_num [strips1]) (by norm_num [strips1]) (by norm_num [strips1]) (by norm_num [strips1])⟩
theorem c1_20 {p T : ℝ} (h1 : 578.15 ≤ T) (h2 : T ≤ 583.15) (hs : Sat.psat T ≤ p + 1e-7) (h3 : p ≤ 100) :
    ∃ s ∈ strips1, s.Mem p (1386 / T) := by
  have k : Sat.psat 578.15 ≤ Sat.psat T := Iv.psat_mono (by norm_num) h1 (by norm_num at *; linarith)
  have k0 := lo1_20
  exact ⟨strips1[20], List.getElem_mem _, Strip.mem_of (pl := 4604133 / 500000) (by norm_num) (by norm_num) h1 h2 (by linarith) h3
    (by norm_num [strips1]) (by norm_num [strips1]) (by norm_num [strips1]) (by norm_num [strips1])⟩
theorem c1_21 {p T : ℝ} (h1 : 583.15 ≤ T) (h2 : T ≤ 585.65) (hs : Sat.psat T ≤ p + 1e-7) (h3 : p ≤ 100) :
    ∃ s ∈ strips1, s.Mem p (1386 / T) := by
  have k : Sat.psat 583.15 ≤ Sat.psat T := Iv.psat_mono (by norm_num) h1 (by norm_num at *; linarith)
  have k0 := lo1_21
  exact ⟨strips1[21], List.getElem_mem _, Strip.mem_of (pl := 4931879 / 500000) (by norm_num) (by norm_num) h1 h2 (by linarith) h3
    (by norm_num [strips1]) (by norm_num [strips1]) (by norm_num [strips1]) (by norm_num [strips1])⟩
theorem c1_22 {p T : ℝ} (h1 : 585.65 ≤ T) (h2 : T ≤ 588.15) (hs : Sat.psat T ≤ p + 1e-7) (h3 : p ≤ 100) :
    ∃ s ∈ strips1, s.Mem p (1386 / T) := by
  have k : Sat.psat 585.65 ≤ Sat.psat T := Iv.psat_mono (by norm_num) h1 (by norm_num at *; linarith)
  have k0 := lo1_22
  exact ⟨strips1[22], List.getElem_mem _, Strip.mem_of (pl := 5102361 / 500000) (by norm_num) (by norm_num) h1 h2 (by linarith) h3
    (by norm_num [strips1]) (by norm_num [strips1]) (by norm_num [strips1]) (by norm_num [strips1])⟩
theorem c1_23 {p T : ℝ} (h1 : 588.15 ≤ T) (h2 : T ≤ 590.65) (hs : Sat.psat T ≤ p + 1e-7) (h3 : p ≤ 100) :
    ∃ s ∈ strips1, s.Mem p (1386 / T) := by
  have k : Sat.psat 588.15 ≤ Sat.psat T := Iv.psat_mono (by norm_num) h1 (by norm_num at *; linarith)
  have k0 := lo1_23
  exact ⟨strips1[23], List.getElem_mem _, Strip.mem_of (pl := 5277371 / 500000) (by norm_num) (by norm_num) h1 h2 (by linarith) h3
    (by norm_num [strips1]) (by norm_num [strips1]) (by norm_num [strips1]) (by norm_num [strips1])⟩
theorem c1_24 {p T : ℝ} (h1 : 590.65 ≤ T) (h2 : T ≤ 593.15) (hs : Sat.psat T ≤ p + 1e-7) (h3 : p ≤ 100) :
    ∃ s ∈ strips1, s.Mem p (1386 / T) := by
  have k : Sat.psat 590.65 ≤ Sat.psat T := Iv.psat_mono (by norm_num) h1 (by norm_num at *; linarith)
  have k0 := lo1_24
  exact ⟨strips1[24], List.getElem_mem _, Strip.mem_of (pl := 2728503 / 250000) (by norm_num) (by norm_num) h1 h2 (by linarith) h3
    (by norm_num [strips1]) (by norm_num [strips1]) (by norm_num [strips1]) (by norm_num [strips1])⟩
theorem c1_25 {p T : ℝ} (h1 : 593.15 ≤ T) (h2 : T ≤ 594.65) (hs : Sat.psat T ≤ p + 1e-7) (h3 : p ≤ 100) :
    ∃ s ∈ strips1, s.Mem p (1386 / T) := by
  have k : Sat.psat 593.15 ≤ Sat.psat T := Iv.psat_mono (by norm_num) h1 (by norm_num at *; linarith)
  have k0 := lo1_25
  exact ⟨strips1[25], List.getElem_mem _, Strip.mem_of (pl := 5641363 / 500000) (by norm_num) (by norm_num) h1 h2 (by linarith) h3
    (by norm_num [strips1]) (by norm_num [strips1]) (by norm_num [strips1]) (by norm_num [strips1])⟩
theorem c1_26 {p T : ℝ} (h1 : 594.65 ≤ T) (h2 : T ≤ 596.15) (hs : Sat.psat T ≤ p + 1e-7) (h3 : p ≤ 100) :
    ∃ s ∈ strips1, s.Mem p (1386 / T) := by
  have k : Sat.psat 594.65 ≤ Sat.psat T := Iv.psat_mono (by norm_num) h1 (by norm_num at *; linarith)
  have k0 := lo1_26
  exact ⟨strips1[26], List.getElem_mem _, Strip.mem_of (pl := 5754287 / 500000) (by norm_num) (by norm_num) h1 h2 (by linarith) h3
    (by norm_num [strips1]) (by norm_num [strips1]) (by norm_num [strips1]) (by norm_num [strips1])⟩
theorem c1_27 {p T : ℝ} (h1 : 596.15 ≤ T) (h2 : T ≤ 599.15) (hs : Sat.psat T ≤ p + 1e-7) (h3 : p ≤ 100) :
    ∃ s ∈ strips1, s.Mem p (1386 / T) := by
  have k : Sat.psat 596.15 ≤ Sat.psat T := Iv.psat_mono (by norm_num) h1 (by norm_num at *; linarith)
  have k0 := lo1_27
  exact ⟨strips1[27], List.getElem_mem _, Strip.mem_of (pl := 586897 / 50000) (by norm_num) (by norm_num) h1 h2 (by linarith) h3
    (by norm_num [strips1]) (by norm_num [strips1]) (by norm_num [strips1]) (by norm_num [strips1])⟩
theorem c1_28 {p T : ℝ} (h1 : 599.15 ≤ T) (h2 : T ≤ 602.15) (hs : Sat.psat T ≤ p + 1e-7) (h3 : p ≤ 100) :
    ∃ s ∈ strips1, s.Mem p (1386 / T) := by
  have k : Sat.psat 599.15 ≤ Sat.psat T := Iv.psat_mono (by norm_num) h1 (by norm_num at *; linarith)
  have k0 := lo1_28
  exact ⟨strips1[28], List.getElem_mem _, Strip.mem_of (pl := 1525927 / 125000) (by norm_num) (by norm_num) h1 h2 (by linarith) h3
    (by norm_num [strips1]) (by norm_num [strips1]) (by norm_num [strips1]) (by norm_num [strips1])⟩
theorem c1_29 {p T : ℝ} (h1 : 602.15 ≤ T) (h2 : T ≤ 604.15) (hs : Sat.psat T ≤ p + 1e-7) (h3 : p ≤ 100) :
    ∃ s ∈ strips1, s.Mem p (1386 / T) := by
  have k : Sat.psat 602.15 ≤ Sat.psat T := Iv.psat_mono (by norm_num) h1 (by norm_num at *; linarith)
  have k0 := lo1_29
  exact ⟨strips1[29], List.getElem_mem _, Strip.mem_of (pl := 6345769 / 500000) (by norm_num) (by norm_num) h1 h2 (by linarith) h3
    (by norm_num [strips1]) (by norm_num [strips1]) (by norm_num [strips1]) (by norm_num [strips1])⟩
theorem c1_30 {p T : ℝ} (h1 : 604.15 ≤ T) (h2 : T ≤ 606.15) (hs : Sat.psat T ≤ p + 1e-7) (h3 : p ≤ 100) :
    ∃ s ∈ strips1, s.Mem p (1386 / T) := by
  have k : Sat.psat 604.15 ≤ Sat.psat T := Iv.psat_mono (by norm_num) h1 (by norm_num at *; linarith)
  have k0 := lo1_30
  exact ⟨strips1[30], List.getElem_mem _, Strip.mem_of (pl := 651131 / 50000) (by norm_num) (by norm_num) h1 h2 (by linarith) h3
    (by norm_num [strips1]) (by norm_num [strips1]) (by norm_num [strips1]) (by norm_num [strips1])⟩
theorem c1_31 {p T : ℝ} (h1 : 606.15 ≤ T) (h2 : T ≤ 608.15) (hs : Sat.psat T ≤ p + 1e-7) (h3 : p ≤ 100) :
    ∃ s ∈ strips1, s.Mem p (1386 / T) := by
  have k : Sat.psat 606.15 ≤ Sat.psat T := Iv.psat_mono (by norm_num) h1 (by norm_num at *; linarith)
  have k0 := lo1_31
  exact ⟨strips1[31], List.getElem_mem _, Strip.mem_of (pl := 3340129 / 250000) (by norm_num) (by norm_num) h1 h2 (by linarith) h3
    (by norm_num [strips1]) (by norm_num [strips1]) (by norm_num [strips1]) (by norm_num [strips1])⟩
theorem c1_32 {p T : ℝ} (h1 : 608.15 ≤ T) (h2 : T ≤ 610.15) (hs : Sat.psat T ≤ p + 1e-7) (h3 : p ≤ 100) :
    ∃ s ∈ strips1, s.Mem p (1386 / T) := by
  have k : Sat.psat 608.15 ≤ Sat.psat T := Iv.psat_mono (by norm_num) h1 (by norm_num at *; linarith)
  have k0 := lo1_32
  exact ⟨strips1[32], List.getElem_mem _, Strip.mem_of (pl := 6852677 / 500000) (by norm_num) (by norm_num) h1 h2 (by linarith) h3
    (by norm_num [strips1]) (by norm_num [strips1]) (by norm_num [strips1]) (by norm_num [strips1])⟩
theorem c1_33 {p T : ℝ} (h1 : 610.15 ≤ T) (h2 : T ≤ 612.15) (hs : Sat.psat T ≤ p + 1e-7) (h3 : p ≤ 100) :
    ∃ s ∈ strips1, s.Mem p (1386 / T) := by
  have k : Sat.psat 610.15 ≤ Sat.psat T := Iv.psat_mono (by norm_num) h1 (by norm_num at *; linarith)
  have k0 := lo1_33
  exact ⟨strips1[33], List.getElem_mem _, Strip.mem_of (pl := 1405727 / 100000) (by norm_num) (by norm_num) h1 h2 (by linarith) h3
    (by norm_num [strips1]) (by norm_num [strips1]) (by norm_num [strips1]) (by norm_num [strips1])⟩
theorem c1_34 {p T : ℝ} (h1 : 612.15 ≤ T) (h2 : T ≤ 613.15) (hs : Sat.psat T ≤ p + 1e-7) (h3 : p ≤ 100) :
    ∃ s ∈ strips1, s.Mem p (1386 / T) := by
  have k : Sat.psat 612.15 ≤ Sat.psat T := Iv.psat_mono (by norm_num) h1 (by norm_num at *; linarith)
  have k0 := lo1_34
  exact ⟨strips1[34], List.getElem_mem _, Strip.mem_of (pl := 7208201 / 500000) (by norm_num) (by norm_num) h1 h2 (by linarith) h3
    (by norm_num [strips1]) (by norm_num [strips1]) (by norm_num [strips1]) (by norm_num [strips1])⟩
theorem c1_35 {p T : ℝ} (h1 : 613.15 ≤ T) (h2 : T ≤ 614.15) (hs : Sat.psat T ≤ p + 1e-7) (h3 : p ≤ 100) :
    ∃ s ∈ strips1, s.Mem p (1386 / T) := by
  have k : Sat.psat 613.15 ≤ Sat.psat T := Iv.psat_mono (by norm_num) h1 (by norm_num at *; linarith)
  have k0 := lo1_35
  exact ⟨strips1[35], List.getElem_mem _, Strip.mem_of (pl := 45621 / 3125) (by norm_num) (by norm_num) h1 h2 (by linarith) h3
    (by norm_num [strips1]) (by norm_num [strips1]) (by norm_num [strips1]) (by norm_num [strips1])⟩
theorem c1_36 {p T : ℝ} (h1 : 614.15 ≤ T) (h2 : T ≤ 615.15) (hs : Sat.psat T ≤ p + 1e-7) (h3 : p ≤ 100) :
    ∃ s ∈ strips1, s.Mem p (1386 / T) := by
  have k : Sat.psat 614.15 ≤ Sat.psat T := Iv.psat_mono (by norm_num) h1 (by norm_num at *; linarith)
  have k0 := lo1_36
  exact ⟨strips1[36], List.getElem_mem _, Strip.mem_of (pl := 7391449 / 500000) (by norm_num) (by norm_num) h1 h2 (by linarith) h3
    (by norm_num [strips1]) (by norm_num [strips1]) (by norm_num [strips1]) (by norm_num [strips1])⟩
theorem c1_37 {p T : ℝ} (h1 : 615.15 ≤ T) (h2 : T ≤ 616.15) (hs : Sat.psat T ≤ p + 1e-7) (h3 : p ≤ 100) :
    ∃ s ∈ strips1, s.Mem p (1386 / T) := by
  have k : Sat.psat 615.15 ≤ Sat.psat T := Iv.psat_mono (by norm_num) h1 (by norm_num at *; linarith)
  have k0 := lo1_37
  exact ⟨strips1[37], List.getElem_mem _, Strip.mem_of (pl := 1871119 / 125000) (by norm_num) (by norm_num) h1 h2 (by linarith) h3
    (by norm_num [strips1]) (by norm_num [strips1]) (by norm_num [strips1]) (by norm_num [strips1])⟩
theorem c1_38 {p T : ℝ} (h1 : 616.15 ≤ T) (h2 : T ≤ 617.15) (hs : Sat.psat T ≤ p + 1e-7) (h3 : p ≤ 100) :
    ∃ s ∈ strips1, s.Mem p (1386 / T) := by
  have k : Sat.psat 616.15 ≤ Sat.psat T := Iv.psat_mono (by norm_num) h1 (by norm_num at *; linarith)
  have k0 := lo1_38
  exact ⟨strips1[38], List.getElem_mem _, Strip.mem_of (pl := 3789227 / 250000) (by norm_num) (by norm_num) h1 h2 (by linarith) h3
    (by norm_num [strips1]) (by norm_num [strips1]) (by norm_num [strips1]) (by norm_num [strips1])⟩
theorem c1_39 {p T : ℝ} (h1 : 617.15 ≤ T) (h2 : T ≤ 618.15) (hs : Sat.psat T ≤ p + 1e-7) (h3 : p ≤ 100) :
    ∃ s ∈ strips1, s.Mem p (1386 / T) := by
  have k : Sat.psat 617.15 ≤ Sat.psat T := Iv.psat_mono (by norm_num) h1 (by norm_num at *; linarith)
  have k0 := lo1_39
  exact ⟨strips1[39], List.getElem_mem _, Strip.mem_of (pl := 767339 / 50000) (by norm_num) (by norm_num) h1 h2 (by linarith) h3
    (by norm_num [strips1]) (by norm_num [strips1]) (by norm_num [strips1]) (by norm_num [strips1])⟩
theorem c1_40 {p T : ℝ} (h1 : 618.15 ≤ T) (h2 : T ≤ 619.15) (hs : Sat.psat T ≤ p + 1e-7) (h3 : p ≤ 100) :
    ∃ s ∈ strips1, s.Mem p (1386 / T) := by
  have k : Sat.psat 618.15 ≤ Sat.psat T := Iv.psat_mono (by norm_num) h1 (by norm_num at *; linarith)
  have k0 := lo1_40
  exact ⟨strips1[40], List.getElem_mem _, Strip.mem_of (pl := 485581 / 31250) (by norm_num) (by norm_num) h1 h2 (by linarith) h3
    (by norm_num [strips1]) (by norm_num [strips1]) (by norm_num [strips1]) (by norm_num [strips1])⟩
theorem c1_41 {p T : ℝ} (h1 : 619.15 ≤ T) (h2 : T ≤ 619.65) (hs : Sat.psat T ≤ p + 1e-7) (h3 : p ≤ 100) :
    ∃ s ∈ strips1, s.Mem p (1386 / T) := by
  have k : Sat.psat 619.15 ≤ Sat.psat T := Iv.psat_mono (by norm_num) h1 (by norm_num at *; linarith)
  have k0 := lo1_41
  exact ⟨strips1[41], List.getElem_mem _, Strip.mem_of (pl := 7866183 / 500000) (by norm_num) (by norm_num) h1 h2 (by linarith) h3
    (by norm_num [strips1]) (by norm_num [strips1]) (by norm_num [strips1]) (by norm_num [strips1])⟩
theorem c1_42 {p T : ℝ} (h1 : 619.65 ≤ T) (h2 : T ≤ 620.15) (hs : Sat.psat T ≤ p + 1e-7) (h3 : p ≤ 100) :
    ∃ s ∈ strips1, s.Mem p (1386 / T) := by
  have k : Sat.psat 619.65 ≤ Sat.psat T := Iv.psat_mono (by norm_num) h1 (by norm_num at *; linarith)
  have k0 := lo1_42
  exact ⟨strips1[42], List.getElem_mem _, Strip.mem_of (pl := 7914997 / 500000) (by norm_num) (by norm_num) h1 h2 (by linarith) h3
    (by norm_num [strips1]) (by norm_num [strips1]) (by norm_num [strips1]) (by norm_num [strips1])⟩
theorem c1_43 {p T : ℝ} (h1 : 620.15 ≤ T) (h2 : T ≤ 620.65) (hs : Sat.psat T ≤ p + 1e-7) (h3 : p ≤ 100) :
    ∃ s ∈ strips1, s.Mem p (1386 / T) := by
  have k : Sat.psat 620.15 ≤ Sat.psat T := Iv.psat_mono (by norm_num) h1 (by norm_num at *; linarith)
  have k0 := lo1_43
  exact ⟨strips1[43], List.getElem_mem _, Strip.mem_of (pl := 7964061 / 500000) (by norm_num) (by norm_num) h1 h2 (by linarith) h3
    (by norm_num [strips1]) (by norm_num [strips1]) (by norm_num [strips1]) (by norm_num [strips1])⟩
theorem c1_44 {p T : ℝ} (h1 : 620.65 ≤ T) (h2 : T ≤ 621.15) (hs : Sat.psat T ≤ p + 1e-7) (h3 : p ≤ 100) :
    ∃ s ∈ strips1, s.Mem p (1386 / T) := by
  have k : Sat.psat 620.65 ≤ Sat.psat T := Iv.psat_mono (by norm_num) h1 (by norm_num at *; linarith)
  have k0 := lo1_44
  exact ⟨strips1[44], List.getElem_mem _, Strip.mem_of (pl := 64107 / 4000) (by norm_num) (by norm_num) h1 h2 (by linarith) h3
    (by norm_num [strips1]) (by norm_num [strips1]) (by norm_num [strips1]) (by norm_num [strips1])⟩
theorem c1_45 {p T : ℝ} (h1 : 621.15 ≤ T) (h2 : T ≤ 621.65) (hs : Sat.psat T ≤ p + 1e-7) (h3 : p ≤ 100) :
    ∃ s ∈ strips1, s.Mem p (1386 / T) := by
  have k : Sat.psat 621.15 ≤ Sat.psat T := Iv.psat_mono (by norm_num) h1 (by norm_num at *; linarith)
  have k0 := lo1_45
  exact ⟨strips1[45], List.getElem_mem _, Strip.mem_of (pl := 8062941 / 500000) (by norm_num) (by norm_num) h1 h2 (by linarith) h3
    (by norm_num [strips1]) (by norm_num [strips1]) (by norm_num [strips1]) (by norm_num [strips1])⟩
theorem c1_46 {p T : ℝ} (h1 : 621.65 ≤ T) (h2 : T ≤ 622.15) (hs : Sat.psat T ≤ p + 1e-7) (h3 : p ≤ 100) :
    ∃ s ∈ strips1, s.Mem p (1386 / T) := by
  have k : Sat.psat 621.65 ≤ Sat.psat T := Iv.psat_mono (by norm_num) h1 (by norm_num at *; linarith)
  have k0 := lo1_46
  exact ⟨strips1[46], List.getElem_mem _, Strip.mem_of (pl := 8112761 / 500000) (by norm_num) (by norm_num) h1 h2 (by linarith) h3
    (by norm_num [strips1]) (by norm_num [strips1]) (by norm_num [strips1]) (by norm_num [strips1])⟩
theorem c1_47 {p T : ℝ} (h1 : 622.15 ≤ T) (h2 : T ≤ 622.65) (hs : Sat.psat T ≤ p + 1e-7) (h3 : p ≤ 100) :
    ∃ s ∈ strips1, s.Mem p (1386 / T) := by
  have k : Sat.psat 622.15 ≤ Sat.psat T := Iv.psat_mono (by norm_num) h1 (by norm_num at *; linarith)
  have k0 := lo1_47
  exact ⟨strips1[47], List.getElem_mem _, Strip.mem_of (pl := 1632567 / 100000) (by norm_num) (by norm_num) h1 h2 (by linarith) h3
    (by norm_num [strips1]) (by norm_num [strips1]) (by norm_num [strips1]) (by norm_num [strips1])⟩
theorem c1_48 {p T : ℝ} (h1 : 622.65 ≤ T) (h2 : T ≤ 622.9) (hs : Sat.psat T ≤ p + 1e-7) (h3 : p ≤ 100) :
    ∃ s ∈ strips1, s.Mem p (1386 / T) := by
  have k : Sat.psat 622.65 ≤ Sat.psat T := Iv.psat_mono (by norm_num) h1 (by norm_num at *; linarith)
  have k0 := lo1_48
  exact ⟨strips1[48], List.getElem_mem _, Strip.mem_of (pl := 4106583 / 250000) (by norm_num) (by norm_num) h1 h2 (by linarith) h3
    (by norm_num [strips1]) (by norm_num [strips1]) (by norm_num [strips1]) (by norm_num [strips1])⟩
theorem c1_49 {p T : ℝ} (h1 : 622.9 ≤ T) (h2 : T ≤ 623.15) (hs : Sat.psat T ≤ p + 1e-7) (h3 : p ≤ 100) :
    ∃ s ∈ strips1, s.Mem p (1386 / T) := by
  have k : Sat.psat 622.9 ≤ Sat.psat T := Iv.psat_mono (by norm_num) h1 (by norm_num at *; linarith)
  have k0 := lo1_49
  exact ⟨strips1[49], List.getElem_mem _, Strip.mem_of (pl := 2059607 / 125000) (by norm_num) (by norm_num) h1 h2 (by linarith) h3
    (by norm_num [strips1]) (by norm_num [strips1]) (by norm_num [strips1]) (by norm_num [strips1])⟩

theorem cover1 {p T : ℝ} (h : InRange 1 p T) : ∃ s ∈ strips1, s.Mem p (1386 / T) := by
  obtain ⟨-, hp, h1, h2, hs, h100⟩ : (1 : Int) = 1 ∧ 0 < p ∧ 273.1499999 ≤ T ∧ T ≤ 623.15 ∧ Sat.psat T ≤ p + 1e-7 ∧ p ≤ 100 := by
    rcases h with h | h | h
    · exact h
    · exact absurd h.1 (by decide)
    · exact absurd h.1 (by decide)
  rcases le_or_gt T 283.15 with k0 | k0
  · exact c1_0 h1 k0 hs h100
  rcases le_or_gt T 293.15 with k1 | k1
  · exact c1_1 k0.le k1 hs h100
  rcases le_or_gt T 313.15 with k2 | k2
  · exact c1_2 k1.le k2 hs h100
  rcases le_or_gt T 333.15 with k3 | k3
  · exact c1_3 k2.le k3 hs h100
  rcases le_or_gt T 353.15 with k4 | k4
  · exact c1_4 k3.le k4 hs h100
  rcases le_or_gt T 373.15 with k5 | k5
  · exact c1_5 k4.le k5 hs h100
  rcases le_or_gt T 393.15 with k6 | k6
  · exact c1_6 k5.le k6 hs h100
  rcases le_or_gt T 413.15 with k7 | k7
  · exact c1_7 k6.le k7 hs h100
  rcases le_or_gt T 433.15 with k8 | k8
  · exact c1_8 k7.le k8 hs h100
  rcases le_or_gt T 453.15 with k9 | k9
  · exact c1_9 k8.le k9 hs h100
  rcases le_or_gt T 473.15 with k10 | k10
  · exact c1_10 k9.le k10 hs h100
  rcases le_or_gt T 493.15 with k11 | k11
  · exact c1_11 k10.le k11 hs h100
  rcases le_or_gt T 513.15 with k12 | k12
  · exact c1_12 k11.le k12 hs h100
  rcases le_or_gt T 533.15 with k13 | k13
  · exact c1_13 k12.le k13 hs h100
  rcases le_or_gt T 543.15 with k14 | k14
  · exact c1_14 k13.le k14 hs h100
  rcases le_or_gt T 553.15 with k15 | k15
  · exact c1_15 k14.le k15 hs h100
  rcases le_or_gt T 563.15 with k16 | k16
  · exact c1_16 k15.le k16 hs h100
  rcases le_or_gt T 568.15 with k17 | k17
  · exact c1_17 k16.le k17 hs h100
  rcases le_or_gt T 573.15 with k18 | k18
  · exact c1_18 k17.le k18 hs h100
  rcases le_or_gt T 578.15 with k19 | k19
  · exact c1_19 k18.le k19 hs h100
  rcases le_or_gt T 583.15 with k20 | k20
  · exact c1_20 k19.le k20 hs h100
  rcases le_or_gt T 585.65 with k21 | k21
  · exact c1_21 k20.le k21 hs h100
  rcases le_or_gt T 588.15 with k22 | k22
  · exact c1_22 k21.le k22 hs h100
  rcases le_or_gt T 590.65 with k23 | k23
  · exact c1_23 k22.le k23 hs h100
  rcases le_or_gt T 593.15 with k24 | k24
  · exact c1_24 k23.le k24 hs h100
  rcases le_or_gt T 594.65 with k25 | k25
  · exact c1_25 k24.le k25 hs h100
  rcases le_or_gt T 596.15 with k26 | k26
  · exact c1_26 k25.le k26 hs h100
  rcases le_or_gt T 599.15 with k27 | k27
  · exact c1_27 k26.le k27 hs h100
  rcases le_or_gt T 602.15 with k28 | k28
  · exact c1_28 k27.le k28 hs h100
  rcases le_or_gt T 604.15 with k29 | k29
  · exact c1_29 k28.le k29 hs h100
  rcases le_or_gt T 606.15 with k30 | k30
  · exact c1_30 k29.le k30 hs h100
  rcases le_or_gt T 608.15 with k31 | k31
  · exact c1_31 k30.le k31 hs h100
  rcases le_or_gt T 610.15 with k32 | k32
  · exact c1_32 k31.le k32 hs h100
  rcases le_or_gt T 612.15 with k33 | k33
  · exact c1_33 k32.le k33 hs h100
  rcases le_or_gt T 613.15 with k34 | k34
  · exact c1_34 k33.le k34 hs h100
  rcases le_or_gt T 614.15 with k35 | k35
  · exact c1_35 k34.le k35 hs h100
  rcases le_or_gt T 615.15 with k36 | k36
  · exact c1_36 k35.le k36 hs h100
  rcases le_or_gt T 616.15 with k37 | k37
  · exact c1_37 k36.le k37 hs h100
  rcases le_or_gt T 617.15 with k38 | k38
  · exact c1_38 k37.le k38 hs h100
  rcases le_or_gt T 618.15 with k39 | k39
  · exact c1_39 k38.le k39 hs h100
  rcases le_or_gt T 619.15 with k40 | k40
  · exact c1_40 k39.le k40 hs h100
  rcases le_or_gt T 619.65 with k41 | k41
  · exact c1_41 k40.le k41 hs h100
  rcases le_or_gt T 620.15 with k42 | k42
  · exact c1_42 k41.le k42 hs h100
  rcases le_or_gt T 620.65 with k43 | k43
  · exact c1_43 k42.le k43 hs h100
  rcases le_or_gt T 621.15 with k44 | k44
  · exact c1_44 k43.le k44 hs h100
  rcases le_or_gt T 621.65 with k45 | k45
  · exact c1_45 k44.le k45 hs h100
  rcases le_or_gt T 622.15 with k46 | k46
  · exact c1_46 k45.le k46 hs h100
  rcases le_or_gt T 622.65 with k47 | k47
  · exact c1_47 k46.le k47 hs h100
  rcases le_or_gt T 622.9 with k48 | k48
  · exact c1_48 k47.le k48 hs h100
  exact c1_49 k48.le h2 hs h100

end If97.Tm
