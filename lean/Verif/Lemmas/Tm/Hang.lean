import Verif.Lemmas.Tm.Leaf3
import Verif.Lemmas.Tm.Cover2
import Verif.Lemmas.Tm.Fans2s
import Verif.Lemmas.TwoPhase
import Verif.Model.Reg4Loops

/-!
# One pass of the pressure iteration of `hs` in the two-phase region, h = 1680 kJ/kg

What the generated subdivisions establish about the entropy the iteration compares with the given one, below
and above the pressure 16.5291642526045 MPa where the code changes from regions 1 and 2 to region 3.
-/

namespace If97.Tm

/-- a point of the saturation line lies below (`lo`) or above (`hi`) the temperature 540/τ -/
def SatAbove (β τ : ℝ) : Prop := 0 < τ ∧ 540 / τ ∈ Set.Icc (273 : ℝ) 648 ∧ β ^ 4 < Sat.psat (540 / τ)
def SatBelow (β τ : ℝ) : Prop := 0 < τ ∧ 540 / τ ∈ Set.Icc (273 : ℝ) 648 ∧ Sat.psat (540 / τ) < β ^ 4

noncomputable def inBox (P : Par) (b tau : TM) (k : Bool) : Bool :=
  gd (lin P [b, tone P] [(0, ⟨false, 1, 1⟩), (1, ⟨true, 157, 1000⟩)] fun d => pos P d) <|
  gd (lin P [b, tone P] [(0, ⟨true, 1, 1⟩), (1, ⟨false, 202, 100⟩)] fun d => pos P d) <|
  gd (lin P [tau, tone P] [(0, ⟨false, 1, 1⟩), (1, ⟨true, 5400, 6233⟩)] fun d => pos P d) <|
  gd (lin P [tau, tone P] [(0, ⟨true, 1, 1⟩), (1, ⟨false, 540, 273⟩)] fun d => pos P d) k

noncomputable def kAbove (P : Par) (b tau : TM) : Bool := inBox P b tau (satQ P 540 b tau fun q => pos P q)
noncomputable def kBelow (P : Par) (b tau : TM) : Bool :=
  inBox P b tau (satQ P 540 b tau fun q => pos P ⟨q.q, q.p, q.r, q.nm⟩)

theorem inBox_sound {P : Par} (hP : P.Ok) {u v : ℝ} (hu : |u| ≤ 1) (hv : |v| ≤ 1) {b tau : TM} {k : Bool} {β τ : ℝ}
    (h : inBox P b tau k = true) (hb : Enc P u v b β) (ht : Enc P u v tau τ) :
    0 ≤ β ∧ 0 < τ ∧ 540 / τ ∈ Set.Icc (273 : ℝ) 648 ∧
      2 * Sat.qA (Sat.th (540 / τ)) * β + Sat.qB (Sat.th (540 / τ)) < 0 ∧ k = true := by
  obtain ⟨c1, h⟩ := gd_true h
  obtain ⟨c2, h⟩ := gd_true h
  obtain ⟨c3, h⟩ := gd_true h
  obtain ⟨c4, h⟩ := gd_true h
  have g1 := gt_sound hP hu hv hb c1
  have g2 := lt_sound hP hu hv hb c2
  have g3 := gt_sound hP hu hv ht c3
  have g4 := lt_sound hP hu hv ht c4
  norm_num only [Nat.cast_ofNat] at g1 g2 g3 g4
  have h0 : 0 < τ := by linarith
  have k1 : 540 / τ ≤ 623.3 := by rw [div_le_iff₀ h0]; norm_num; linarith
  have k2 : 273 ≤ 540 / τ := by rw [le_div_iff₀ h0]; linarith
  have hm : 540 / τ ∈ Set.Icc (273 : ℝ) 648 := ⟨k2, by norm_num at *; linarith⟩
  exact ⟨by linarith, h0, hm, slope (Sat.th_mem hm).1 (th_le k1) (by norm_num at *; linarith) (by norm_num at *; linarith), h⟩

theorem kAbove_ok {P : Par} (hP : P.Ok) : BodyOk P (kAbove P) SatAbove := by
  intro u v hu hv b tau β τ hb ht h
  obtain ⟨b0, h0, hm, hs, h⟩ := inBox_sound hP hu hv h hb ht
  obtain ⟨-, q, hq, h⟩ := satQ_sound hP hu hv h hb ht
  have hq := pos_sound hP hu hv h hq
  norm_num only [Nat.cast_ofNat] at hq
  exact ⟨h0, hm, Sat.lt_psat hm hs b0 hq⟩

theorem kBelow_ok {P : Par} (hP : P.Ok) : BodyOk P (kBelow P) SatBelow := by
  intro u v hu hv b tau β τ hb ht h
  obtain ⟨b0, h0, hm, hs, h⟩ := inBox_sound hP hu hv h hb ht
  obtain ⟨-, q, hq, h⟩ := satQ_sound hP hu hv h hb ht
  have hq := neg_pos_sound hP hu hv h hq
  norm_num only [Nat.cast_ofNat] at hq
  exact ⟨h0, hm, Sat.psat_lt hm hs hq⟩

/-- the saturation temperature lies between the two curves -/
theorem sat_between {β T a b : ℝ} (hT : T ∈ Set.Icc (273 : ℝ) 648) (h : Sat.psat T = β ^ 4) (ha : SatAbove β a)
    (hb : SatBelow β b) : a ≤ 540 / T ∧ 540 / T ≤ b := by
  have hT0 : 0 < T := by linarith [hT.1]
  obtain ⟨a0, am, ah⟩ := ha
  obtain ⟨b0, bm, bh⟩ := hb
  have k1 : T < 540 / a := Sat.psat_strictMonoOn.lt_iff_lt hT am |>.1 (h ▸ ah)
  have k2 : 540 / b < T := Sat.psat_strictMonoOn.lt_iff_lt bm hT |>.1 (h ▸ bh)
  rw [lt_div_iff₀ a0] at k1
  rw [div_lt_iff₀ b0] at k2
  rw [le_div_iff₀ hT0, div_le_iff₀ hT0]
  constructor <;> linarith

/-- x s'' + (1 - x) s' with the quality x of the enthalpy 1680 -/
noncomputable def mixS (a b c d : ℝ) : ℝ := (1680 - a) / (b - a) * d + (1 - (1680 - a) / (b - a)) * c

/-- entropy from regions 1 and 2 -/
noncomputable def S12 (p T : ℝ) : ℝ := mixS (G1.H p T) (G2.H p T) (G1.S p T) (G2.S p T)
/-- enthalpies from regions 1 and 2, entropies from region 3 -/
noncomputable def S13 (p T : ℝ) : ℝ :=
  mixS (G1.H p T) (G2.H p T) (Td2s_reg3 T (1 / ph2v_3a_reg3 p (G1.H p T))) (Td2s_reg3 T (1 / ph2v_3b_reg3 p (G2.H p T)))
noncomputable def hL3 (p T : ℝ) : ℝ := Td2h_reg3 T (1 / pT2v_3c p T)
noncomputable def hV3 (p T : ℝ) : ℝ := Td2h_reg3 T (1 / pT2v_3t p T)
/-- all from region 3 -/
noncomputable def S33 (p T : ℝ) : ℝ :=
  mixS (hL3 p T) (hV3 p T) (Td2s_reg3 T (1 / ph2v_3a_reg3 p (hL3 p T))) (Td2s_reg3 T (1 / ph2v_3b_reg3 p (hV3 p T)))

/-- S > 3.79295 -/
noncomputable def gtS (P : Par) (S : TM) (k : Bool) : Bool :=
  gd (lin P [S, tone P] [(0, ⟨false, 1, 1⟩), (1, ⟨true, 379295, 100000⟩)] fun d => pos P d) k

/-- p (S + 3.792947) < 2·3.792947·(16.5291642526045 + 6·10⁻⁵) -/
noncomputable def ltP (P : Par) (p S : TM) : Bool :=
  mul P p S fun m => lin P [p, m, tone P] [(0, ⟨true, 3792947, 1000000⟩), (1, ⟨true, 1, 1⟩),
    (2, ⟨false, 1253889430824869609230, 10000000000000000000⟩)] fun d => pos P d

def RA (β τ : ℝ) : Prop := 3.79295 < S12 (β ^ 4) (540 / τ) ∧
  β ^ 4 * (S12 (β ^ 4) (540 / τ) + 3.792947) < 2 * 3.792947 * 16.5292242526045
def RC (β τ : ℝ) : Prop := 3.79295 < S13 (β ^ 4) (540 / τ) ∧
  β ^ 4 * (S13 (β ^ 4) (540 / τ) + 3.792947) < 2 * 3.792947 * 16.5292242526045 ∧
  G1.H (β ^ 4) (540 / τ) < 1700 ∧ 2500 < G2.H (β ^ 4) (540 / τ)
def RB (β τ : ℝ) : Prop := 3 < S33 (β ^ 4) (540 / τ) ∧ S33 (β ^ 4) (540 / τ) < 3.792946 ∧
  hL3 (β ^ 4) (540 / τ) < 1700 ∧ 2500 < hV3 (β ^ 4) (540 / τ)

noncomputable def bA (P : Par) (c : LogC) (b tau : TM) : Bool :=
  p4 P b fun p => hs1 P p tau fun hL sL => hs2 P c b p tau fun hV sV => mix P 1680 hL hV sL sV fun S =>
  gtS P S (ltP P p S)

noncomputable def bC (P : Par) (c cL cV : LogC) (b tau : TM) : Bool :=
  p4 P b fun p => hs1 P p tau fun hL _ => hs2 P c b p tau fun hV _ =>
  v3a P p hL fun vL => s3 P cL vL tau fun sL => v3b P p hV fun vV => s3 P cV vV tau fun sV =>
  gd (lin P [hL, tone P] [(0, ⟨true, 1, 1⟩), (1, ⟨false, 1700, 1⟩)] fun d => pos P d) <|
  gd (lin P [hV, tone P] [(0, ⟨false, 1, 1⟩), (1, ⟨true, 2500, 1⟩)] fun d => pos P d) <|
  mix P 1680 hL hV sL sV fun S => gtS P S (ltP P p S)

noncomputable def bB (P : Par) (cL cV : LogC) (b tau : TM) : Bool :=
  p4 P b fun p => inv P 4 tau fun ti =>
  v3c P p ti fun vL => h3 P vL tau ti fun hL => v3t P p ti fun vV => h3 P vV tau ti fun hV =>
  v3a P p hL fun vL => s3 P cL vL tau fun sL => v3b P p hV fun vV => s3 P cV vV tau fun sV =>
  gd (lin P [hL, tone P] [(0, ⟨true, 1, 1⟩), (1, ⟨false, 1700, 1⟩)] fun d => pos P d) <|
  gd (lin P [hV, tone P] [(0, ⟨false, 1, 1⟩), (1, ⟨true, 2500, 1⟩)] fun d => pos P d) <|
  mix P 1680 hL hV sL sV fun S =>
  gd (lin P [S, tone P] [(0, ⟨true, 1, 1⟩), (1, ⟨false, 3792946, 1000000⟩)] fun d => pos P d) <|
  lin P [S, tone P] [(0, ⟨false, 1, 1⟩), (1, ⟨true, 3, 1⟩)] fun d => pos P d

section
variable {P : Par} (hP : P.Ok) {u v : ℝ} (hu : |u| ≤ 1) (hv : |v| ≤ 1)
include hP hu hv

theorem step_sound {p S : TM} {x y : ℝ} (h : gtS P S (ltP P p S) = true) (hp : Enc P u v p x) (hS : Enc P u v S y) :
    3.79295 < y ∧ x * (y + 3.792947) < 2 * 3.792947 * 16.5292242526045 := by
  obtain ⟨c, h⟩ := gd_true h
  have g := gt_sound hP hu hv hS c
  obtain ⟨m, hm, h⟩ := mul_sound hP hu hv h hp hS
  obtain ⟨d, hd, h⟩ := lin_sound hP hu hv (.cons hp (.cons hm (.cons (enc_one hP) .nil))) h
  have hd := pos_sound hP hu hv h hd
  norm_num [linV, Co.val] at g hd ⊢
  constructor
  · linarith
  · linarith

end

theorem bA_ok {P : Par} (hP : P.Ok) {c : LogC} (hc : c.Ok) : BodyOk P (bA P c) RA := by
  intro u v hu hv b tau β τ hb ht h
  obtain ⟨p, hp, h⟩ := p4_sound hP hu hv h hb
  obtain ⟨hL, sL, hhL, hsL, h⟩ := hs1_sound hP hu hv h hp ht
  obtain ⟨-, -, hV, sV, hhV, hsV, h⟩ := hs2_sound hP hu hv hc h hb hp ht
  obtain ⟨S, hS, h⟩ := mix_sound hP hu hv h hhL hhV hsL hsV
  norm_num only [Nat.cast_ofNat] at hS
  exact step_sound hP hu hv h hp hS

theorem bC_ok {P : Par} (hP : P.Ok) {c cL cV : LogC} (hc : c.Ok) (hcL : cL.Ok) (hcV : cV.Ok) :
    BodyOk P (bC P c cL cV) RC := by
  intro u v hu hv b tau β τ hb ht h
  obtain ⟨p, hp, h⟩ := p4_sound hP hu hv h hb
  obtain ⟨hL, -, hhL, -, h⟩ := hs1_sound hP hu hv h hp ht
  obtain ⟨-, h0, hV, -, hhV, -, h⟩ := hs2_sound hP hu hv hc h hb hp ht
  obtain ⟨vL, hvL, h⟩ := v3a_sound hP hu hv h hp hhL
  obtain ⟨sL, hsL, h⟩ := s3_sound hP hu hv hcL h hvL ht h0
  obtain ⟨vV, hvV, h⟩ := v3b_sound hP hu hv h hp hhV
  obtain ⟨sV, hsV, h⟩ := s3_sound hP hu hv hcV h hvV ht h0
  obtain ⟨k1, h⟩ := gd_true h
  obtain ⟨k2, h⟩ := gd_true h
  have k1 := lt_sound hP hu hv hhL k1
  have k2 := gt_sound hP hu hv hhV k2
  obtain ⟨S, hS, h⟩ := mix_sound hP hu hv h hhL hhV hsL hsV
  norm_num only [Nat.cast_ofNat] at hS k1 k2
  have := step_sound hP hu hv h hp hS
  exact ⟨this.1, this.2, k1, k2⟩

theorem bB_ok {P : Par} (hP : P.Ok) {cL cV : LogC} (hcL : cL.Ok) (hcV : cV.Ok) : BodyOk P (bB P cL cV) RB := by
  intro u v hu hv b tau β τ hb ht h
  obtain ⟨p, hp, h⟩ := p4_sound hP hu hv h hb
  obtain ⟨h0, ti, hti, h⟩ := inv_sound hP hu hv h ht
  obtain ⟨vL, hvL, h⟩ := v3c_sound hP hu hv h hp hti
  obtain ⟨-, hL, hhL, h⟩ := h3_sound hP hu hv h hvL ht hti h0
  obtain ⟨vV, hvV, h⟩ := v3t_sound hP hu hv h hp hti
  obtain ⟨-, hV, hhV, h⟩ := h3_sound hP hu hv h hvV ht hti h0
  obtain ⟨vL, hvL, h⟩ := v3a_sound hP hu hv h hp hhL
  obtain ⟨sL, hsL, h⟩ := s3_sound hP hu hv hcL h hvL ht h0
  obtain ⟨vV, hvV, h⟩ := v3b_sound hP hu hv h hp hhV
  obtain ⟨sV, hsV, h⟩ := s3_sound hP hu hv hcV h hvV ht h0
  obtain ⟨k1, h⟩ := gd_true h
  obtain ⟨k2, h⟩ := gd_true h
  have k1 := lt_sound hP hu hv hhL k1
  have k2 := gt_sound hP hu hv hhV k2
  obtain ⟨S, hS, h⟩ := mix_sound hP hu hv h hhL hhV hsL hsV
  obtain ⟨k3, h⟩ := gd_true h
  have k3 := lt_sound hP hu hv hS k3
  have k4 := gt_sound hP hu hv hS h
  norm_num only [Nat.cast_ofNat] at k1 k2 k3 k4
  refine ⟨?_, ?_, k1, k2⟩
  · exact k4
  · refine lt_of_lt_of_eq k3 (by norm_num)

variable {xr yr xc D yc E : ℕ}

noncomputable def vFan (body : TM → TM → Bool) (A B : Q6) (xr yr : Nat) (t : Tr4) : Nat → Nat → Nat → Nat → Bool :=
  verify4 (leafF P19 A B body xr yr) never never never xr yr t

theorem okFan {body : TM → TM → Bool} {R : ℝ → ℝ → Prop} (hb : BodyOk P19 body R) (A B : Q6) (t : Tr4)
    (h : chk xr yr xc D yc E (vFan body A B xr yr t) = true) : Good (Rf R A B) xr yr xc D yc E :=
  chk_sound (leafF_ok P19_ok hb) never_ok never_ok never_ok h

end If97.Tm

/-! Subdivisions along the saturation line for the pressure iteration of `hs` (generated, checked in the kernel) -/

namespace If97.Tm
set_option maxRecDepth 100000

def qh0a : Q6 :=
  ⟨⟨false, 1877114773, 1000000000⟩, ⟨true, 498631173, 500000000⟩, ⟨false, 192416321, 500000000⟩, ⟨true, 37344601, 500000000⟩, ⟨true, 3067, 2000000⟩, ⟨false, 1099737, 500000000⟩⟩
def qh0b : Q6 :=
  ⟨⟨false, 1877114813, 1000000000⟩, ⟨true, 498631173, 500000000⟩, ⟨false, 192416321, 500000000⟩, ⟨true, 37344601, 500000000⟩, ⟨true, 3067, 2000000⟩, ⟨false, 1099737, 500000000⟩⟩
def qh1a : Q6 :=
  ⟨⟨false, 870195357, 500000000⟩, ⟨true, 618815591, 1000000000⟩, ⟨true, 3425033, 100000000⟩, ⟨false, 157392623, 1000000000⟩, ⟨true, 65806503, 1000000000⟩, ⟨false, 2330167, 250000000⟩⟩
def qh1b : Q6 :=
  ⟨⟨false, 870195377, 500000000⟩, ⟨true, 618815591, 1000000000⟩, ⟨true, 3425033, 100000000⟩, ⟨false, 157392623, 1000000000⟩, ⟨true, 65806503, 1000000000⟩, ⟨false, 2330167, 250000000⟩⟩
def qh2a : Q6 :=
  ⟨⟨false, 1090762579, 1000000000⟩, ⟨false, 536776109, 500000000⟩, ⟨true, 1798046971, 1000000000⟩, ⟨false, 269162573, 250000000⟩, ⟨true, 152696449, 500000000⟩, ⟨false, 17150963, 500000000⟩⟩
def qh2b : Q6 :=
  ⟨⟨false, 1090762619, 1000000000⟩, ⟨false, 536776109, 500000000⟩, ⟨true, 1798046971, 1000000000⟩, ⟨false, 269162573, 250000000⟩, ⟨true, 152696449, 500000000⟩, ⟨false, 17150963, 500000000⟩⟩
def qh3a : Q6 :=
  ⟨⟨false, 211642367, 200000000⟩, ⟨false, 578470023, 500000000⟩, ⟨true, 1883486951, 1000000000⟩, ⟨false, 560208623, 500000000⟩, ⟨true, 316601673, 1000000000⟩, ⟨false, 8862511, 250000000⟩⟩
def qh3b : Q6 :=
  ⟨⟨false, 1693139, 1600000⟩, ⟨false, 578470023, 500000000⟩, ⟨true, 1883486951, 1000000000⟩, ⟨false, 560208623, 500000000⟩, ⟨true, 316601673, 1000000000⟩, ⟨false, 8862511, 250000000⟩⟩

def lcL3 : LogC := ⟨89, 50, ⟨false, 28830668215199689, 50000000000000000⟩, 1, 20, 10000⟩
theorem lcL3_ok : lcL3.Ok := by
  refine LogC.ok_of (e := 9 / 10 ^ 15) (by decide) ?_ (by norm_num [lcL3])
  have e : ((lcL3.cn : ℝ) / lcL3.cd) = (2 : ℝ) ^ (1 : ℤ) * (1 - (11/100)) := by norm_num [lcL3]
  rw [e]
  refine log_near (by norm_num [abs_lt]) 34 ?_
  norm_num [Finset.sum_range_succ, lcL3, Co.val, abs_le]

def lcV3 : LogC := ⟨353, 1000, ⟨true, 208257444409768057, 200000000000000000⟩, 1, 20, 10000⟩
theorem lcV3_ok : lcV3.Ok := by
  refine LogC.ok_of (e := 9 / 10 ^ 15) (by decide) ?_ (by norm_num [lcV3])
  have e : ((lcV3.cn : ℝ) / lcV3.cd) = (2 : ℝ) ^ (-1 : ℤ) * (1 - (147/500)) := by norm_num [lcV3]
  rw [e]
  refine log_near (by norm_num [abs_lt]) 34 ?_
  norm_num [Finset.sum_range_succ, lcV3, Co.val, abs_le]

theorem hang_c0a : Good (fun β _ => SatAbove β (qh0a.val β)) 100000 1 3500000 2000000 1 2 :=
  okCur (kAbove_ok P19_ok) qh0a (.a) (by decide +kernel)
theorem hang_c0b : Good (fun β _ => SatBelow β (qh0b.val β)) 100000 1 3500000 2000000 1 2 :=
  okCur (kBelow_ok P19_ok) qh0b (.a) (by decide +kernel)
theorem hang_c1a : Good (fun β _ => SatAbove β (qh1a.val β)) 100000 1 3700000 2000000 1 2 :=
  okCur (kAbove_ok P19_ok) qh1a (.a) (by decide +kernel)
theorem hang_c1b : Good (fun β _ => SatBelow β (qh1b.val β)) 100000 1 3700000 2000000 1 2 :=
  okCur (kBelow_ok P19_ok) qh1b (.a) (by decide +kernel)
theorem hang_c2a : Good (fun β _ => SatAbove β (qh2a.val β)) 116336 1 3916336 2000000 1 2 :=
  okCur (kAbove_ok P19_ok) qh2a (.x .a .a) (by decide +kernel)
theorem hang_c2b : Good (fun β _ => SatBelow β (qh2b.val β)) 116336 1 3916336 2000000 1 2 :=
  okCur (kBelow_ok P19_ok) qh2b (.x .a .a) (by decide +kernel)
theorem hang_c3a : Good (fun β _ => SatAbove β (qh3a.val β)) 2 1 4032672 2000000 1 2 :=
  okCur (kAbove_ok P19_ok) qh3a (.a) (by decide +kernel)
theorem hang_c3b : Good (fun β _ => SatBelow β (qh3b.val β)) 2 1 4032672 2000000 1 2 :=
  okCur (kBelow_ok P19_ok) qh3b (.a) (by decide +kernel)
theorem hang_a0 : Good (Rf RA qh0a qh0b) 100000 1 3500000 2000000 1 2 :=
  okFan (bA_ok P19_ok lcU1_ok) qh0a qh0b (.x .a .a) (by decide +kernel)
theorem hang_a1 : Good (Rf RA qh1a qh1b) 100000 1 3700000 2000000 1 2 :=
  okFan (bA_ok P19_ok lcU2_ok) qh1a qh1b (.x .a .a) (by decide +kernel)
theorem hang_a2 : Good (Rf RA qh2a qh2b) 116336 1 3916336 2000000 1 2 :=
  okFan (bA_ok P19_ok lcU2_ok) qh2a qh2b (.x (.x .a .a) (.x .a (.x .a (.x .a (.x .a .a))))) (by decide +kernel)
theorem hang_b : Good (Rf RB qh3a qh3b) 2 1 4032672 2000000 1 2 :=
  okFan (bB_ok P19_ok lcL3_ok lcV3_ok) qh3a qh3b (.a) (by decide +kernel)
theorem hang_c : Good (Rf RC qh3a qh3b) 1 1 4032671 2000000 1 2 :=
  okFan (bC_ok P19_ok lcU2_ok lcL3_ok lcV3_ok) qh3a qh3b (.a) (by decide +kernel)

end If97.Tm

/-!
# The pressure iteration of `hs` in the two-phase region at h = 1680 kJ/kg

For entropies between 3.792947 and 3.792949 kJ/(kg K) the iteration crosses the pressure where the code
changes its equations, in both directions, and the entropy it computes is never within 10⁻⁶ of the given one.
-/

namespace If97.Tm

theorem root4 {p : ℝ} (hp : 0 < p) : ∃ β : ℝ, 0 < β ∧ β ^ 4 = p :=
  ⟨p ^ (1 / 4 : ℝ), by positivity, by rw [← Real.rpow_natCast, ← Real.rpow_mul hp.le]; norm_num⟩

theorem le_root {a β p : ℝ} (hβ : 0 < β) (e : β ^ 4 = p) (ha : a ^ 4 ≤ p) : a ≤ β :=
  le_of_pow_le_pow_left₀ (by norm_num) hβ.le (e ▸ ha)
theorem root_le {a β p : ℝ} (a0 : 0 ≤ a) (e : β ^ 4 = p) (ha : p ≤ a ^ 4) : β ≤ a :=
  le_of_pow_le_pow_left₀ (by norm_num) a0 (e ▸ ha)

/-- a statement proved between the two curves holds on the saturation line -/
theorem onSat {R : ℝ → ℝ → Prop} {A B : Q6} {lo hi D lo' hi' D' : ℕ} (hD : 0 < D) (hl : lo ≤ hi)
    (hD' : 0 < D') (hl' : lo' ≤ hi')
    (ca : Good (fun β _ => SatAbove β (A.val β)) (hi' - lo') 1 (hi' + lo') (2 * D') 1 2)
    (cb : Good (fun β _ => SatBelow β (B.val β)) (hi' - lo') 1 (hi' + lo') (2 * D') 1 2)
    (h : Good (Rf R A B) (hi - lo) 1 (hi + lo) (2 * D) 1 2) {β p : ℝ} (e : β ^ 4 = p)
    (h1 : (lo : ℝ) / D ≤ β) (h2 : β ≤ (hi : ℝ) / D) (h1' : (lo' : ℝ) / D' ≤ β) (h2' : β ≤ (hi' : ℝ) / D')
    (p1 : 0.000611212677444 ≤ p) (p2 : p ≤ 22.064) : R β (540 / T_saturation p) := by
  obtain ⟨m, et⟩ := TwoPhase.sat_T p1 p2
  obtain ⟨k1, k2⟩ := sat_between m (et.trans e.symm) (curUse hD' hl' ca h1' h2') (curUse hD' hl' cb h1' h2')
  exact fanUse hD hl h h1 h2 k1 k2

theorem b540 {T : ℝ} : 540 / (540 / T) = T := div_div_cancel₀ (by norm_num)

section
variable {p : ℝ} (p1 : 8.3521 ≤ p)
include p1

/-- below the change of equations -/
theorem factA (p2 : p < 16.5291642526045) :
    3.79295 < S12 p (T_saturation p) ∧ p * (S12 p (T_saturation p) + 3.792947) < 2 * 3.792947 * 16.5292242526045 := by
  obtain ⟨β, hβ, e⟩ := root4 (show 0 < p by linarith)
  have q1 : (0.000611212677444 : ℝ) ≤ p := by norm_num at *; linarith
  have q2 : p ≤ 22.064 := by norm_num at *; linarith
  have b0 : 1.7 ≤ β := le_root hβ e (by norm_num at *; linarith)
  have b3 : β ≤ 2.016336 := root_le (by norm_num) e (by norm_num at *; linarith)
  have key : RA β (540 / T_saturation p) := by
    rcases le_total β 1.8 with hb | hb
    · exact onSat (lo := 1700000) (hi := 1800000) (D := 1000000) (lo' := 1700000) (hi' := 1800000) (D' := 1000000)
        (by norm_num) (by norm_num) (by norm_num) (by norm_num) hang_c0a hang_c0b hang_a0 e (by norm_num at *; linarith) (by norm_num at *; linarith)
        (by norm_num at *; linarith) (by norm_num at *; linarith) q1 q2
    rcases le_total β 1.9 with hc | hc
    · exact onSat (lo := 1800000) (hi := 1900000) (D := 1000000) (lo' := 1800000) (hi' := 1900000) (D' := 1000000)
        (by norm_num) (by norm_num) (by norm_num) (by norm_num) hang_c1a hang_c1b hang_a1 e (by norm_num at *; linarith) (by norm_num at *; linarith)
        (by norm_num at *; linarith) (by norm_num at *; linarith) q1 q2
    · exact onSat (lo := 1900000) (hi := 2016336) (D := 1000000) (lo' := 1900000) (hi' := 2016336) (D' := 1000000)
        (by norm_num) (by norm_num) (by norm_num) (by norm_num) hang_c2a hang_c2b hang_a2 e (by norm_num at *; linarith) (by norm_num at *; linarith)
        (by norm_num at *; linarith) (by norm_num at *; linarith) q1 q2
  unfold RA at key
  rwa [b540, e] at key
end

section
variable {p : ℝ} (p1 : 16.5291642526045 ≤ p)
include p1

/-- at the change of equations -/
theorem factC (p2 : p ≤ 16.5291642526045) :
    3.79295 < S13 p (T_saturation p) ∧ p * (S13 p (T_saturation p) + 3.792947) < 2 * 3.792947 * 16.5292242526045 ∧
      G1.H p (T_saturation p) < 1700 ∧ 2500 < G2.H p (T_saturation p) := by
  obtain ⟨β, hβ, e⟩ := root4 (show 0 < p by norm_num at *; linarith)
  have q1 : (0.000611212677444 : ℝ) ≤ p := by norm_num at *; linarith
  have q2 : p ≤ 22.064 := by norm_num at *; linarith
  have b0 : 2.016335 ≤ β := le_root hβ e (by norm_num at *; linarith)
  have b3 : β ≤ 2.016336 := root_le (by norm_num) e (by norm_num at *; linarith)
  have key : RC β (540 / T_saturation p) :=
    onSat (lo := 2016335) (hi := 2016336) (D := 1000000) (lo' := 2016335) (hi' := 2016337) (D' := 1000000)
        (by norm_num) (by norm_num) (by norm_num) (by norm_num) hang_c3a hang_c3b hang_c e (by norm_num at *; linarith) (by norm_num at *; linarith)
        (by norm_num at *; linarith) (by norm_num at *; linarith) q1 q2
  unfold RC at key
  rwa [b540, e] at key

/-- above the change of equations -/
theorem factB (p2 : p ≤ 16.5292242526045) :
    3 < S33 p (T_saturation p) ∧ S33 p (T_saturation p) < 3.792946 ∧
      hL3 p (T_saturation p) < 1700 ∧ 2500 < hV3 p (T_saturation p) := by
  obtain ⟨β, hβ, e⟩ := root4 (show 0 < p by norm_num at *; linarith)
  have q1 : (0.000611212677444 : ℝ) ≤ p := by norm_num at *; linarith
  have q2 : p ≤ 22.064 := by norm_num at *; linarith
  have b0 : 2.016335 ≤ β := le_root hβ e (by norm_num at *; linarith)
  have b3 : β ≤ 2.016337 := root_le (by norm_num) e (by norm_num at *; linarith)
  have key : RB β (540 / T_saturation p) :=
    onSat (lo := 2016335) (hi := 2016337) (D := 1000000) (lo' := 2016335) (hi' := 2016337) (D' := 1000000)
        (by norm_num) (by norm_num) (by norm_num) (by norm_num) hang_c3a hang_c3b hang_b e (by norm_num at *; linarith) (by norm_num at *; linarith)
        (by norm_num at *; linarith) (by norm_num at *; linarith) q1 q2
  unfold RB at key
  rwa [b540, e] at key
end

/-! ### the entropy of one pass -/

theorem satReg {p : ℝ} (p1 : 8.3521 ≤ p) (p2 : p ≤ 16.53) : Regular 1 p (T_saturation p) ∧ Regular 2 p (T_saturation p) := by
  obtain ⟨m, -⟩ := TwoPhase.sat_T (p := p) (by norm_num at *; linarith) (by norm_num at *; linarith)
  have h1 : (0 : ℝ) < p := by linarith
  have h2 : (0 : ℝ) < T_saturation p := by linarith [m.1]
  refine ⟨⟨h1, h2, fun _ => ⟨ne_of_lt (by norm_num at *; linarith), ne_of_lt (by norm_num at *; linarith [m.2])⟩, fun h => by norm_num at h⟩,
    ⟨h1, h2, fun h => by norm_num at h, fun _ => ne_of_lt (by linarith [m.2])⟩⟩

theorem hL_low {p : ℝ} (p1 : 8.3521 ≤ p) (p2 : p ≤ 16.5291642526045) : p2sat_water p OH = G1.H p (T_saturation p) := by
  unfold p2sat_water
  rw [if_neg (by decide), if_neg (by decide), if_pos (by simp [P_MIN, Ps_623]; norm_num at *; constructor <;> linarith)]
  exact V1.H (satReg p1 (by norm_num at *; linarith)).1
theorem hV_low {p : ℝ} (p1 : 8.3521 ≤ p) (p2 : p ≤ 16.5291642526045) : p2sat_steam p OH = G2.H p (T_saturation p) := by
  unfold p2sat_steam
  rw [if_neg (by decide), if_neg (by decide), if_pos (by simp [P_MIN, Ps_623]; norm_num at *; constructor <;> linarith)]
  exact V2.H (satReg p1 (by norm_num at *; linarith)).2

theorem hL_high {p : ℝ} (p1 : 16.5291642526045 < p) (p2 : p ≤ 16.53) : p2sat_water p OH = hL3 p (T_saturation p) := by
  unfold p2sat_water
  rw [if_neg (by decide), if_neg (by decide), if_neg (by simp [P_MIN, Ps_623]; norm_num at *; intros; linarith)]
  have hc : ¬ ((fabs (p - PC_WATER) <. FLOAT_ERROR) = true) := by
    simp only [fabs, real_abs, real_lt, PC_WATER, FLOAT_ERROR, decide_eq_true_eq, not_lt, le_abs]
    right; norm_num at *; linarith
  have e : pT2v_sat_reg3 p (T_saturation p) 0.0 = pT2v_3c p (T_saturation p) := by
    unfold pT2v_sat_reg3
    rw [if_pos (by norm_num), if_pos (by simp; norm_num at *; linarith)]; rfl
  simp only [if_neg hc, e]
  rw [if_neg (by decide), if_neg (by decide), show (1.0 : ℝ) = 1 by norm_num]; rfl
theorem hV_high {p : ℝ} (p1 : 16.5291642526045 < p) (p2 : p ≤ 16.53) : p2sat_steam p OH = hV3 p (T_saturation p) := by
  unfold p2sat_steam
  rw [if_neg (by decide), if_neg (by decide), if_neg (by simp [P_MIN, Ps_623]; norm_num at *; intros; linarith)]
  have hc : ¬ ((fabs (p - PC_WATER) <. FLOAT_ERROR) = true) := by
    simp only [fabs, real_abs, real_lt, PC_WATER, FLOAT_ERROR, decide_eq_true_eq, not_lt, le_abs]
    right; norm_num at *; linarith
  have e : pT2v_sat_reg3 p (T_saturation p) 1.0 = pT2v_3t p (T_saturation p) := by
    unfold pT2v_sat_reg3
    rw [if_neg (by norm_num), if_pos (by simp; norm_num at *; linarith)]; rfl
  simp only [if_neg hc, e]
  rw [if_neg (by decide), if_neg (by decide), show (1.0 : ℝ) = 1 by norm_num]; rfl

theorem sssA {p : ℝ} (p1 : 8.3521 ≤ p) (p2 : p < 16.5291642526045) : hs2T_reg4_sss 1680 p = S12 p (T_saturation p) := by
  obtain ⟨r1, r2⟩ := satReg p1 (by norm_num at *; linarith)
  unfold hs2T_reg4_sss ph_reg4
  have hc : (p <. Ps_623) = true := by simp [Ps_623]; norm_num at *; linarith
  simp only [hc, if_true, hL_low p1 p2.le, hV_low p1 p2.le, V1.S r1, V2.S r2]
  rw [show (1.0 : ℝ) = 1 by norm_num]; rfl

theorem h3ab {p : ℝ} (p1 : 16.5291642526045 ≤ p) (p2 : p ≤ 16.53) : 1700 < p2h_3ab p ∧ p2h_3ab p < 2500 := by
  have e : p2h_3ab p = 0.201464004206875e4 + p * (0.374696550136983e1 + p * (-0.219921901054187e-1 + 0.875131686009950e-4 * p)) := by
    norm_num [p2h_3ab, p2h_3ab_n, nthF]
  rw [e]
  norm_num at *
  have h1 : 0 ≤ p * (p * p) := by positivity
  constructor <;> nlinarith

theorem v3_lo {p h : ℝ} (p1 : 16.5291642526045 ≤ p) (p2 : p ≤ 16.53) (hh : h < 1700) :
    ph_reg3 p h OV = ph2v_3a_reg3 p h := by
  unfold ph_reg3 ph2v_reg3
  rw [if_pos (by decide), if_pos (by simp; linarith [(h3ab p1 p2).1])]
theorem v3_hi {p h : ℝ} (p1 : 16.5291642526045 ≤ p) (p2 : p ≤ 16.53) (hh : 2500 < h) :
    ph_reg3 p h OV = ph2v_3b_reg3 p h := by
  unfold ph_reg3 ph2v_reg3
  rw [if_pos (by decide), if_neg (by simp; linarith [(h3ab p1 p2).2])]

theorem sssC {p : ℝ} (p1 : 16.5291642526045 ≤ p) (p2 : p ≤ 16.5291642526045) :
    hs2T_reg4_sss 1680 p = S13 p (T_saturation p) := by
  obtain ⟨-, -, f1, f2⟩ := factC p1 p2
  have p1' : 8.3521 ≤ p := by norm_num at *; linarith
  have p2' : p ≤ 16.53 := by norm_num at *; linarith
  unfold hs2T_reg4_sss ph_reg4
  have hc : ¬ (p <. Ps_623) = true := by simp [Ps_623]; norm_num at *; linarith
  simp only [hc, hL_low p1' p2, hV_low p1' p2, v3_lo p1 p2' f1, v3_hi p1 p2' f2]
  rw [show (1.0 : ℝ) = 1 by norm_num]; rfl

theorem sssB {p : ℝ} (p1 : 16.5291642526045 < p) (p2 : p ≤ 16.5292242526045) :
    hs2T_reg4_sss 1680 p = S33 p (T_saturation p) := by
  obtain ⟨-, -, f1, f2⟩ := factB p1.le p2
  have p2' : p ≤ 16.53 := by norm_num at *; linarith
  unfold hs2T_reg4_sss ph_reg4
  have hc : ¬ (p <. Ps_623) = true := by simp [Ps_623]; norm_num at *; linarith
  simp only [hc, hL_high p1 p2', hV_high p1 p2', v3_lo p1.le p2' f1, v3_hi p1.le p2' f2]
  rw [show (1.0 : ℝ) = 1 by norm_num]; rfl

/-- one pass: the computed entropy misses the given one, and the next pressure stays in the interval -/
theorem pass {s p : ℝ} (s1 : 3.792947 ≤ s) (s2 : s ≤ 3.792949) (p1 : 8.3521 ≤ p) (p2 : p ≤ 16.5292242526045) :
    1e-6 < |s - hs2T_reg4_sss 1680 p| ∧
      8.3521 ≤ p * (1 + (hs2T_reg4_sss 1680 p - s) / (2 * s)) ∧
      p * (1 + (hs2T_reg4_sss 1680 p - s) / (2 * s)) ≤ 16.5292242526045 := by
  have s0 : (0 : ℝ) < s := by norm_num at *; linarith
  have p0 : (0 : ℝ) < p := by linarith
  generalize hS : hs2T_reg4_sss 1680 p = S
  have e : p * (1 + (S - s) / (2 * s)) = p * (S + s) / (2 * s) := by field_simp; ring
  rw [e, le_div_iff₀ (by positivity), div_le_iff₀ (by positivity)]
  have up : 3.79295 < S → p * (S + 3.792947) < 2 * 3.792947 * 16.5292242526045 →
      1e-6 < |s - S| ∧ 8.3521 * (2 * s) ≤ p * (S + s) ∧ p * (S + s) ≤ 16.5292242526045 * (2 * s) := by
    intro a1 a2
    refine ⟨?_, ?_, ?_⟩
    · rw [lt_abs]; right; norm_num at *; linarith
    · have : s + s ≤ S + s := by norm_num at *; linarith
      nlinarith
    · have : p * (s - 3.792947) ≤ 16.5292242526045 * (s - 3.792947) :=
        mul_le_mul_of_nonneg_right p2 (by linarith)
      nlinarith
  rcases lt_trichotomy p 16.5291642526045 with hp | hp | hp
  · obtain ⟨a1, a2⟩ := factA p1 hp
    rw [← sssA p1 hp, hS] at a1 a2
    exact up a1 a2
  · obtain ⟨a1, a2, -, -⟩ := factC hp.ge hp.le
    rw [← sssC hp.ge hp.le, hS] at a1 a2
    exact up a1 a2
  · obtain ⟨a1, a2, -, -⟩ := factB hp.le p2
    rw [← sssB hp p2, hS] at a1 a2
    refine ⟨?_, ?_, ?_⟩
    · rw [lt_abs]; left; norm_num at *; linarith
    · have h1 : p * (3 + s) ≤ p * (S + s) := mul_le_mul_of_nonneg_left (by linarith) p0.le
      have h2 : (16 : ℝ) * (3 + s) ≤ p * (3 + s) := mul_le_mul_of_nonneg_right (by norm_num at *; linarith) (by linarith)
      norm_num at *; linarith
    · have h1 : p * (S + s) ≤ p * (s + s) := mul_le_mul_of_nonneg_left (by norm_num at *; linarith) p0.le
      nlinarith

/-- the second loop of the region 4 inversion never ends -/
theorem loop_none {s : ℝ} (s1 : 3.792947 ≤ s) (s2 : s ≤ 3.792949) {sss p lo hi : ℝ} (h0 : 1e-6 < |s - sss|)
    (h1 : 8.3521 ≤ 0.5 * (lo + hi)) (h2 : 0.5 * (lo + hi) ≤ 16.5292242526045) :
    hs2T_reg4_loop 1680 s sss p lo hi = none := by
  by_contra hne
  obtain ⟨r, hr⟩ := Option.ne_none_iff_exists'.mp hne
  refine hs2T_reg4_loop.partial_correctness (1680 : ℝ) s
    (fun sss _ lo hi _ => 1e-6 < |s - sss| → 8.3521 ≤ 0.5 * (lo + hi) → 0.5 * (lo + hi) ≤ 16.5292242526045 → False)
    ?_ sss p lo hi r hr h0 h1 h2
  intro f ih sss p lo hi r hr h0 h1 h2
  have s0 : (0 : ℝ) < s := by norm_num at *; linarith
  rw [if_pos (by simp only [real_abs, real_lt, decide_eq_true_eq]; norm_num at *; linarith)] at hr
  simp only [] at hr
  obtain ⟨a1, a2, a3⟩ := pass s1 s2 h1 h2
  have e1 : ∀ S q : ℝ, (0.5 : ℝ) * ((1.0 + (S - s) / s) * q + q) = q * (1 + (S - s) / (2 * s)) := by
    intro S q; norm_num; field_simp; ring
  have e2 : ∀ S q : ℝ, (0.5 : ℝ) * (q + (1.0 + (S - s) / s) * q) = q * (1 + (S - s) / (2 * s)) := by
    intro S q; rw [add_comm q, e1]
  split at hr
  · exact ih _ _ _ _ _ hr a1 (by rw [e1]; exact a2) (by rw [e1]; exact a3)
  · exact ih _ _ _ _ _ hr a1 (by rw [e2]; exact a2) (by rw [e2]; exact a3)

end If97.Tm
