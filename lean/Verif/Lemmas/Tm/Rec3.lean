import Verif.Lemmas.Tm.R3t
import Verif.Lemmas.Tm.Comp.Region3r
import Verif.Lemmas.Tm.Leaf3s
import Verif.Lemmas.Tm.Leaf2s
import Verif.Lemmas.Tm.Rec3_0
import Verif.Lemmas.Tm.Rec3_1
import Verif.Lemmas.Tm.Logs3
import Verif.Lemmas.Tm.Scales

/-! The tables of the saturation pressure by enthalpy and by entropy in the form the Taylor models use. -/

namespace If97.Tm
set_option maxRecDepth 100000

/-- the same term, in k times both variables -/
def SameD (k : ℝ) (a : Int × Int × Co) (e : Int × Int × ℝ) : Prop :=
  a.1 = e.1 ∧ a.2.1 = e.2.1 ∧ a.2.2.val * k ^ e.1 * k ^ e.2.1 = e.2.2

/-! ### the saturation pressure by enthalpy -/

def exP34h : List Int := [36, 28, 24, 22, 20, 6, 14, 8, 7, 5, 3, 2, 1, 0]
def eyP34h : List Int := [36, 24, 18, 16, 8, 4, 3, 2, 1, 0]
theorem exP34h_eq : powE chxP34h [1, 0] = exP34h := by decide +kernel
theorem eyP34h_eq : powE chyP34h [1, 0] = eyP34h := by decide +kernel
def flP34h : List (Int × Int × Co) := [(0, 0, ⟨false, 9376150652391, 15625000000000⟩), (1, 1, ⟨true, 936203654849857, 625000000000000⟩), (1, 3, ⟨false, 246590798594147, 390625000000000⟩), (1, 4, ⟨true, 6688388928639, 6103515625000⟩), (1, 36, ⟨true, 62934761605847383170613248, 363797880709171295166015625⟩), (5, 3, ⟨true, 431166005850331, 76293945312500⟩), (7, 0, ⟨true, 3684958511563, 95367431640625⟩), (8, 24, ⟨false, 8669132736984888171823104, 186264514923095703125⟩), (14, 16, ⟨true, 6695317521469934766391296, 1490116119384765625⟩), (20, 16, ⟨true, 5871844451555767354325467136, 37252902984619140625⟩), (22, 3, ⟨false, 747633575746764537856, 186264514923095703125⟩), (24, 18, ⟨true, 2675994668202723591718902431744, 931322574615478515625⟩), (28, 8, ⟨false, 363511204841895967219253248, 23283064365386962890625⟩), (36, 24, ⟨false, 7869055750294624162420619700842876895232, 72759576141834259033203125⟩)]
theorem flP34h_eq : flat exP34h eyP34h tbP34h = flP34h := by decide +kernel
theorem tbP34h_ok : tbOk tbP34h exP34h.length eyP34h.length = true := by decide +kernel
theorem P34h_same : List.Forall₂ (SameD (5 / 2)) flP34h (h2p_sat_reg3_IJn : List (Int × Int × ℝ)) := by
  unfold flP34h h2p_sat_reg3_IJn
  repeat' first | exact .nil | refine .cons ⟨by norm_num, by norm_num, by norm_num [Co.val]⟩ ?_

/-! ### the saturation pressure by entropy -/

def exP34s : List Int := [32, 28, 24, 16, 12, 6, 4, 2, 1, 0]
def eyP34s : List Int := [36, 32, 18, 14, 10, 7, 3, 4, 2, 1, 0]
theorem exP34s_eq : powE chxP34s [1, 0] = exP34s := by decide +kernel
theorem eyP34s_eq : powE chyP34s [1, 0] = eyP34s := by decide +kernel
def flP34s : List (Int × Int × Co) := [(0, 0, ⟨false, 127953510722557, 200000000000000⟩), (1, 1, ⟨true, 64863722698007, 31250000000000⟩), (1, 32, ⟨true, 3858514881439580555313152, 23283064365386962890625⟩), (4, 7, ⟨false, 1419733934414768, 19073486328125⟩), (12, 4, ⟨false, 1468578507922509824, 476837158203125⟩), (12, 14, ⟨true, 203382328257972673708032, 11920928955078125⟩), (16, 36, ⟨true, 4512630775598093073556981466989068288, 23283064365386962890625⟩), (24, 10, ⟨false, 1647242710143402577812783104, 298023223876953125⟩), (28, 0, ⟨false, 4001525280986508558336, 4656612873077392578125⟩), (32, 18, ⟨false, 522526438214981677200057357012303872, 37252902984619140625⟩)]
theorem flP34s_eq : flat exP34s eyP34s tbP34s = flP34s := by decide +kernel
theorem tbP34s_ok : tbOk tbP34s exP34s.length eyP34s.length = true := by decide +kernel
theorem P34s_same : List.Forall₂ (SameD (5 / 2)) flP34s (s2p_sat_reg3_IJn : List (Int × Int × ℝ)) := by
  unfold flP34s s2p_sat_reg3_IJn
  repeat' first | exact .nil | refine .cons ⟨by norm_num, by norm_num, by norm_num [Co.val]⟩ ?_

end If97.Tm

/-!
# Region 3 between the enthalpies and entropies of its borders

Coordinates δ = ρ/322 and τ = 647.096/T.  A box of states is accepted when it lies outside the band of pressures or the
region, or when the enthalpy and the entropy lie between the bounds of the band, and, below the critical pressure, the
pressure lies above the saturation pressure by enthalpy and by entropy.
-/

namespace If97.Tm

theorem sumT_eqD {k : ℝ} {l : List (Int × Int × Co)} {T : List (Int × Int × ℝ)}
    (h : List.Forall₂ (SameD k) l T) (x y : ℝ) :
    sumT (k * x) (k * y) l = (T.map fun e => e.2.2 * x ^ e.1 * y ^ e.2.1).sum := by
  induction h with
  | nil => simp [sumT]
  | cons h1 _ ih =>
    simp only [sumT, List.map_cons, List.sum_cons] at ih ⊢
    rw [ih, ← h1.2.2, h1.1, h1.2.1, mul_zpow, mul_zpow]
    congr 1; ring

/-- p - pB23(T + 0.05) -/
noncomputable def gB (x y : ℝ) : ℝ :=
  pP x y - (13.918839778870 + 0.0010192970039326 * (647.096 * y⁻¹ + 0.05 - 572.54459862746) ^ 2)
/-- p less a minorant of the saturation pressure at T + 0.1 -/
noncomputable def gL (x y : ℝ) : ℝ :=
  pP x y - (2.675 * (y⁻¹ + 0.1 / 647.096) ^ 2 - 1.1753 * (y⁻¹ + 0.1 / 647.096) + 0.66744) ^ 4
/-- a majorant of the saturation pressure at T - 0.1, less p -/
noncomputable def gV (x y : ℝ) : ℝ :=
  (2.675 * (y⁻¹ - 0.1 / 647.096) ^ 2 - 1.1753 * (y⁻¹ - 0.1 / 647.096) + 0.66763) ^ 4 - pP x y

/-- the pressure is in the band -/
def InB (B : Bnd) (p : ℝ) : Prop := (B.lo : ℝ) / 1000 ≤ p ∧ p ≤ B.hi / 1000

/-- enthalpy and entropy lie between the bounds -/
def Over (B : Bnd) (p h s : ℝ) : Prop := B.h13.val (p / 100) < h ∧ B.s13.val (p / 100) < s
def Under (B : Bnd) (p h s : ℝ) : Prop := h < B.h32.val (p / 100) ∧ s < B.s32.val (p / 100)

/-- the pressure lies above the saturation pressure by enthalpy and by entropy -/
def Above34 (p h s : ℝ) : Prop :=
  22 * poly_powi (h / 2600 - 1.02) (h / 2600 - 0.608) h2p_sat_reg3_IJn < p ∧
  22 * poly_powi (s / 5.2 - 1.03) (s / 5.2 - 0.699) s2p_sat_reg3_IJn < p

def RRec (B : Bnd) (x y : ℝ) : Prop :=
  0 < x → InB B (pP x y) → 0 ≤ gB x y → Over B (pP x y) (pH x y) (pS x y) ∧ Under B (pP x y) (pH x y) (pS x y)
def Sub3 (B : Bnd) (x y : ℝ) : Prop :=
  Over B (pP x y) (pH x y) (pS x y) ∧ Above34 (pP x y) (pH x y) (pS x y) ∧ Under B (pP x y) (pH x y) (pS x y)
def RSubq (B : Bnd) (x y : ℝ) : Prop := 0 < x → InB B (pP x y) → 0 ≤ gL x y → 1 + lnv y⁻¹ ≤ x → Sub3 B x y
def RSubv (B : Bnd) (x y : ℝ) : Prop :=
  0 < x → InB B (pP x y) → 0 ≤ gV x y → 0 ≤ gB x y → x ≤ 1 - lnv y⁻¹ → Sub3 B x y
def RSubw (B : Bnd) (x y : ℝ) : Prop := 0 < x → InB B (pP x y) → 0 ≤ gV x y → 0 ≤ gB x y → Sub3 B x y

/-- region 1 at 1386/τ -/
def RE13 (B : Bnd) (x y : ℝ) : Prop :=
  0.461526 * 1386 * G1.gt (x / 16.53) y < B.h13.val (x / 100) ∧
  0.461526 * (y * G1.gt (x / 16.53) y - G1.g (x / 16.53) y) < B.s13.val (x / 100)
/-- region 2 on B23 at 540 θ -/
noncomputable def b23p (x : ℝ) : ℝ := 13.918839778870 + 0.0010192970039326 * (540 * x - 572.54459862746) ^ 2
def RE32 (B : Bnd) (x _y : ℝ) : Prop :=
  B.h32.val (b23p x / 100) < 0.461526 * 540 * G2.gt (b23p x) x⁻¹ ∧
  B.s32.val (b23p x / 100) < 0.461526 * (x⁻¹ * G2.gt (b23p x) x⁻¹ - G2.g (b23p x) x⁻¹)

section
variable {P : Par} (hP : P.Ok) {u v : ℝ} (hu : |u| ≤ 1) (hv : |v| ≤ 1)
include hP hu hv

theorem hs3_sound {c : LogC} (hc : c.Ok) {d t : TM} {k : TM → TM → TM → TM → Bool} {x y : ℝ}
    (h : hs3 P c d t k = true) (hd : Enc P u v d x) (ht : Enc P u v t y) (hx : 0 < x) :
    ∃ ti p z w, Enc P u v ti y⁻¹ ∧ Enc P u v p (pP x y) ∧ Enc P u v z (pH x y) ∧
      Enc P u v w (pS x y) ∧ k ti p z w = true := by
  obtain ⟨h0, xs, ys, c, ti, p, hxs, hys, hc', hti, hp, h⟩ := st3t_sound hP hu hv h hd ht hx
  obtain ⟨a, ha, h⟩ := poly_sound0 hP hu hv hxs hys h
  obtain ⟨m, hm, h⟩ := mul_sound hP hu hv h ht ha
  obtain ⟨e, he, h⟩ := lin_sound hP hu hv (.cons hm (.cons hc' .nil)) h
  obtain ⟨e, he, h⟩ := refresh_sound hP h he
  obtain ⟨e, he, h⟩ := mul_sound hP hu hv h he hti
  obtain ⟨z, hz, h⟩ := lin_sound hP hu hv (.cons he .nil) h
  obtain ⟨z, hz, h⟩ := refresh_sound hP h hz
  obtain ⟨f, hf, h⟩ := poly_sound0 hP hu hv hxs hys h
  obtain ⟨-, l, hl, h⟩ := logT_sound hP hu hv hc h hd
  obtain ⟨w, hw, h⟩ := lin_sound hP hu hv (.cons hm (.cons hf (.cons hl .nil))) h
  obtain ⟨w, hw, h⟩ := refresh_sound hP h hw
  rw [j3_val] at hz
  rw [j3_val, z3_val] at hw
  have e2 : R3.xd (322 * x) = x := by unfold R3.xd; field_simp
  have e3 : R3.yt (647.096 / y) = y := by unfold R3.yt; field_simp
  have ez : pH x y = linV [linV [y * R3.ft x y, x * R3.fd x y] [(0, ⟨false, 1, 1⟩), (1, ⟨false, 1, 1⟩)] * y⁻¹]
      [(0, ⟨false, 18665726781, 62500000⟩)] := by
    rw [pH, R3.vH (by positivity) (by positivity), R3.H, e2, e3]
    generalize R3.fd x y = z
    generalize R3.ft x y = z'
    simp only [linV, List.map_cons, List.map_nil, List.sum_cons, List.sum_nil, List.getD_cons_zero, List.getD_cons_succ,
      Co.val, gasR]
    norm_num
    field_simp
    norm_num
    ring
  have ew : pS x y = linV [y * R3.ft x y, poly_powi x y r3_IJn, Real.log x] [(0, ⟨false, 461526, 1000000⟩),
      (1, ⟨true, 461526, 1000000⟩), (2, ⟨true, 2459488213989745419, 5000000000000000000⟩)] := by
    rw [pS, R3.vS (by positivity) (by positivity), R3.S, R3.f, e2, e3]
    generalize R3.ft _ _ = ft
    generalize (poly_powi _ _ _ : ℝ) = f0
    generalize Real.log _ = l0
    simp only [linV, List.map_cons, List.map_nil, List.sum_cons, List.sum_nil, List.getD_cons_zero, List.getD_cons_succ, Co.val,
      gasR, n1]
    norm_num
    ring
  exact ⟨ti, p, z, w, hti, hp, ez ▸ hz, ew ▸ hw, h⟩

theorem above_sound {q : Q6} {b z : TM} {x y : ℝ} (h : above P q b z = true) (hb : Enc P u v b x) (hz : Enc P u v z y) :
    q.val x < y := by
  obtain ⟨w, hw, h⟩ := polyB_sound hP hu hv h hb
  obtain ⟨w, hw, h⟩ := lin_sub hP hu hv hz hw h
  linarith [pos_sound hP hu hv h hw]

theorem below_sound {q : Q6} {b z : TM} {x y : ℝ} (h : below P q b z = true) (hb : Enc P u v b x) (hz : Enc P u v z y) :
    y < q.val x := by
  obtain ⟨w, hw, h⟩ := polyB_sound hP hu hv h hb
  obtain ⟨w, hw, h⟩ := lin_sub hP hu hv hw hz h
  linarith [pos_sound hP hu hv h hw]

theorem belowL_sound {q : Q6} {l2 l1 l0 : Co} {d2 d g b z : TM} {x y a a2 c : ℝ}
    (h : belowL P q l2 l1 l0 d2 d g b z = true) (hd2 : Enc P u v d2 a2) (hd : Enc P u v d a) (hg : Enc P u v g c)
    (hb : Enc P u v b x) (hz : Enc P u v z y) (hc : 0 ≤ c) : y < q.val x := by
  obtain ⟨l, hl, h⟩ := lin_sound hP hu hv (.cons hd2 (.cons hd (.cons (enc_one hP) .nil))) h
  obtain ⟨h1, h⟩ := gd_true h
  have h1 := pos_sound hP hu hv h1 hl
  obtain ⟨m, hm, h⟩ := mul_sound hP hu hv h hl hg
  obtain ⟨w, hw, h⟩ := polyB_sound hP hu hv h hb
  obtain ⟨w, hw, h⟩ := lin_sound hP hu hv (.cons hw (.cons hz (.cons hm .nil))) h
  have := pos_sound hP hu hv h hw
  have h2 := mul_nonneg h1.le hc
  generalize linV _ _ * c = r at *
  have e3 : Co.val ⟨true, 1, 1⟩ = -1 := by norm_num [Co.val]
  have e4 : Co.val ⟨false, 1, 1⟩ = 1 := by norm_num [Co.val]
  simp only [linV, List.map_cons, List.map_nil, List.sum_cons, List.sum_nil, List.getD_cons_zero, List.getD_cons_succ,
    e3, e4] at this
  linarith

theorem x100_sound {p : TM} {k : TM → Bool} {x : ℝ} (h : x100 P p k = true) (hp : Enc P u v p x) :
    ∃ t, Enc P u v t (x / 100) ∧ k t = true := by
  obtain ⟨t, ht, h⟩ := lin_sound hP hu hv (.cons hp .nil) h
  refine ⟨t, ?_, h⟩
  convert ht using 1; norm_num [linV, Co.val]; ring

section
variable {B : Bnd} {x h s p d g : TM} {a b c e m : ℝ}

theorem ck13_sound (k : ck13 P B x h s = true) (hx : Enc P u v x (a / 100)) (hh : Enc P u v h b) (hs : Enc P u v s c) :
    Over B a b c :=
  have k := gd_true k
  ⟨above_sound hP hu hv k.1 hx hh, above_sound hP hu hv k.2 hx hs⟩

theorem ck32_sound (k : ck32 P B x h s = true) (hx : Enc P u v x (a / 100)) (hh : Enc P u v h b) (hs : Enc P u v s c) :
    Under B a b c :=
  have k := gd_true k
  ⟨below_sound hP hu hv k.1 hx hh, below_sound hP hu hv k.2 hx hs⟩

theorem ck32L_sound (k : ck32L P B d g x h s = true) (hd : Enc P u v d e) (hg : Enc P u v g m) (hm : 0 ≤ m)
    (hx : Enc P u v x (a / 100)) (hh : Enc P u v h b) (hs : Enc P u v s c) : Under B a b c := by
  obtain ⟨d2, hd2, k⟩ := mul_sound hP hu hv k hd hd
  have k := gd_true k
  exact ⟨belowL_sound hP hu hv k.1 hd2 hd hg hx hh hm, belowL_sound hP hu hv k.2 hd2 hd hg hx hs hm⟩
end

theorem pBg_sound {ti p : TM} {k : TM → Bool} {x y : ℝ} (h : pBg P ti p k = true) (ht : Enc P u v ti y⁻¹)
    (hp : Enc P u v p (pP x y)) : ∃ g, Enc P u v g (gB x y) ∧ k g = true := by
  obtain ⟨t2, ht2, h⟩ := mul_sound hP hu hv h ht ht
  obtain ⟨b, hb, h⟩ := lin_sound hP hu hv (.cons ht2 (.cons ht (.cons (enc_one hP) .nil))) h
  obtain ⟨g, hg, h⟩ := lin_sub hP hu hv hp hb h
  obtain ⟨g, hg, h⟩ := refresh_sound hP h hg
  refine ⟨g, ?_, h⟩
  convert hg using 1
  unfold gB
  generalize y⁻¹ = z
  generalize pP x y = q
  norm_num [linV, Co.val]; ring

theorem gLiq_sound {ti p : TM} {k : TM → TM → Bool} {x y : ℝ} (h : gLiq P ti p k = true) (ht : Enc P u v ti y⁻¹)
    (hp : Enc P u v p (pP x y)) : ∃ t2 g, Enc P u v t2 (y⁻¹ * y⁻¹) ∧ Enc P u v g (gL x y) ∧ k t2 g = true := by
  obtain ⟨t2, ht2, h⟩ := mul_sound hP hu hv h ht ht
  obtain ⟨b, hb, h⟩ := lin_sound hP hu hv (.cons ht2 (.cons ht (.cons (enc_one hP) .nil))) h
  obtain ⟨b2, hb2, h⟩ := mul_sound hP hu hv h hb hb
  obtain ⟨b4, hb4, h⟩ := mul_sound hP hu hv h hb2 hb2
  obtain ⟨g, hg, h⟩ := lin_sub hP hu hv hp hb4 h
  obtain ⟨g, hg, h⟩ := refresh_sound hP h hg
  refine ⟨t2, g, ht2, ?_, h⟩
  convert hg using 1
  have e : linV [y⁻¹ * y⁻¹, y⁻¹, 1] [(0, ⟨false, 107, 40⟩), (1, ⟨true, 949996161, 808870000⟩),
      (2, ⟨false, 27285476829571, 40891917306250⟩)] =
      2.675 * (y⁻¹ + 0.1 / 647.096) ^ 2 - 1.1753 * (y⁻¹ + 0.1 / 647.096) + 0.66744 := by
    generalize y⁻¹ = z
    norm_num [linV, Co.val]; ring
  rw [e, gL]
  ring

theorem gVap_sound {ti p : TM} {k : TM → TM → Bool} {x y : ℝ} (h : gVap P ti p k = true) (ht : Enc P u v ti y⁻¹)
    (hp : Enc P u v p (pP x y)) : ∃ t2 g, Enc P u v t2 (y⁻¹ * y⁻¹) ∧ Enc P u v g (gV x y) ∧ k t2 g = true := by
  obtain ⟨t2, ht2, h⟩ := mul_sound hP hu hv h ht ht
  obtain ⟨b, hb, h⟩ := lin_sound hP hu hv (.cons ht2 (.cons ht (.cons (enc_one hP) .nil))) h
  obtain ⟨b2, hb2, h⟩ := mul_sound hP hu hv h hb hb
  obtain ⟨b4, hb4, h⟩ := mul_sound hP hu hv h hb2 hb2
  obtain ⟨g, hg, h⟩ := lin_sound hP hu hv (.cons hp (.cons hb4 .nil)) h
  obtain ⟨g, hg, h⟩ := refresh_sound hP h hg
  refine ⟨t2, g, ht2, ?_, h⟩
  convert hg using 1
  have e : linV [y⁻¹ * y⁻¹, y⁻¹, 1] [(0, ⟨false, 107, 40⟩), (1, ⟨true, 951333661, 808870000⟩),
      (2, ⟨false, 436929606929497, 654270676900000⟩)] =
      2.675 * (y⁻¹ - 0.1 / 647.096) ^ 2 - 1.1753 * (y⁻¹ - 0.1 / 647.096) + 0.66763 := by
    generalize y⁻¹ = z
    norm_num [linV, Co.val]; ring
  rw [e, gV]
  generalize (2.675 * (y⁻¹ - 0.1 / 647.096) ^ 2 - 1.1753 * (y⁻¹ - 0.1 / 647.096) + 0.66763 : ℝ) = b
  norm_num [linV, Co.val]; ring

theorem kBnd_sound {B : Bnd} {p : TM} {k : Bool} {x : ℝ} (h : kBnd P B p k = true) (hp : Enc P u v p x) :
    ¬ InB B x ∨ k = true := by
  rcases orB_true h with h | h
  · obtain ⟨w, hw, h⟩ := lin_sound hP hu hv (.cons (enc_one hP) (.cons hp .nil)) h
    have := pos_sound hP hu hv h hw
    norm_num [linV, Co.val] at this
    exact .inl fun hi => by have := hi.1; linarith
  rcases orB_true h with h | h
  · obtain ⟨w, hw, h⟩ := lin_sound hP hu hv (.cons (enc_one hP) (.cons hp .nil)) h
    have := pos_sound hP hu hv h hw
    norm_num [linV, Co.val] at this
    exact .inl fun hi => by have := hi.2; linarith
  exact .inr h

/-! the saturation pressure by enthalpy and entropy -/

theorem backD_sound {chx chy : List (Nat × Nat)}
    {tb : List (Nat × List (Nat × Co))} {ex ey : List Int} {fl : List (Int × Int × Co)} {T : List (Int × Int × ℝ)} {r : ℝ}
    (hx : powE chx [1, 0] = ex) (hy : powE chy [1, 0] = ey) (cx : chOk chx 2 = true) (cy : chOk chy 2 = true)
    (ht : tbOk tb ex.length ey.length = true) (hf : flat ex ey tb = fl) (hs : List.Forall₂ (SameD r) fl T)
    {s t : TM} {k : TM → Bool} {x y : ℝ} (h : back P chx chy tb s t k = true) (h1 : Enc P u v s (r * x))
    (h2 : Enc P u v t (r * y)) : ∃ w, Enc P u v w (poly_powi x y T) ∧ k w = true := by
  obtain ⟨xs, hxs, h⟩ := pows_sound hP hu hv h (.cons h1 (.cons (enc_one hP) .nil))
  obtain ⟨ys, hys, h⟩ := pows_sound hP hu hv h (.cons h2 (.cons (enc_one hP) .nil))
  obtain ⟨w, hw, h⟩ := poly_sound0 hP hu hv hxs hys h
  refine ⟨w, ?_, h⟩
  have ex' : powsV chx [r * x, 1] = ex.map ((r * x) ^ ·) := by
    rw [← hx, ← powsV_eq (.inr (by decide)) (by simpa using cx)]; simp
  have ey' : powsV chy [r * y, 1] = ey.map ((r * y) ^ ·) := by
    rw [← hy, ← powsV_eq (.inr (by decide)) (by simpa using cy)]; simp
  rw [ex', ey', polyV_eq ht, hf, sumT_eqD hs] at hw
  rwa [poly_powi_sum]

theorem p34h_sound {h : TM} {k : TM → Bool} {x : ℝ} (e : p34h P h k = true) (hh : Enc P u v h x) :
    ∃ w, Enc P u v w (22 * poly_powi (x / 2600 - 1.02) (x / 2600 - 0.608) h2p_sat_reg3_IJn) ∧ k w = true := by
  obtain ⟨X, hX, e⟩ := lin_sound hP hu hv (.cons hh (.cons (enc_one hP) .nil)) e
  obtain ⟨X, hX, e⟩ := refresh_sound hP e hX
  obtain ⟨Y, hY, e⟩ := lin_sound hP hu hv (.cons hh (.cons (enc_one hP) .nil)) e
  obtain ⟨Y, hY, e⟩ := refresh_sound hP e hY
  have eX : linV [x, 1] [(0, ⟨false, 1, 1040⟩), (1, ⟨true, 51, 20⟩)] = 5 / 2 * (x / 2600 - 1.02) := by
    norm_num [linV, Co.val]; ring
  have eY : linV [x, 1] [(0, ⟨false, 1, 1040⟩), (1, ⟨true, 38, 25⟩)] = 5 / 2 * (x / 2600 - 0.608) := by
    norm_num [linV, Co.val]; ring
  rw [eX] at hX
  rw [eY] at hY
  obtain ⟨w, hw, e⟩ := backD_sound hP hu hv exP34h_eq eyP34h_eq (by decide) (by decide) tbP34h_ok flP34h_eq
    P34h_same e hX hY
  obtain ⟨w, hw, e⟩ := lin_sound hP hu hv (.cons hw .nil) e
  refine ⟨w, ?_, e⟩
  convert hw using 1
  generalize (poly_powi _ _ _ : ℝ) = a
  norm_num [linV, Co.val]

theorem p34s_sound {h : TM} {k : TM → Bool} {x : ℝ} (e : p34s P h k = true) (hh : Enc P u v h x) :
    ∃ w, Enc P u v w (22 * poly_powi (x / 5.2 - 1.03) (x / 5.2 - 0.699) s2p_sat_reg3_IJn) ∧ k w = true := by
  obtain ⟨X, hX, e⟩ := lin_sound hP hu hv (.cons hh (.cons (enc_one hP) .nil)) e
  obtain ⟨X, hX, e⟩ := refresh_sound hP e hX
  obtain ⟨Y, hY, e⟩ := lin_sound hP hu hv (.cons hh (.cons (enc_one hP) .nil)) e
  obtain ⟨Y, hY, e⟩ := refresh_sound hP e hY
  have eX : linV [x, 1] [(0, ⟨false, 25, 52⟩), (1, ⟨true, 103, 40⟩)] = 5 / 2 * (x / 5.2 - 1.03) := by
    norm_num [linV, Co.val]; ring
  have eY : linV [x, 1] [(0, ⟨false, 25, 52⟩), (1, ⟨true, 699, 400⟩)] = 5 / 2 * (x / 5.2 - 0.699) := by
    norm_num [linV, Co.val]; ring
  rw [eX] at hX
  rw [eY] at hY
  obtain ⟨w, hw, e⟩ := backD_sound hP hu hv exP34s_eq eyP34s_eq (by decide) (by decide) tbP34s_ok flP34s_eq
    P34s_same e hX hY
  obtain ⟨w, hw, e⟩ := lin_sound hP hu hv (.cons hw .nil) e
  refine ⟨w, ?_, e⟩
  convert hw using 1
  generalize (poly_powi _ _ _ : ℝ) = a
  norm_num [linV, Co.val]

section
variable {h s p g : TM} {a b c m : ℝ}

theorem ck34_sound (k : ck34 P p h s = true) (hp : Enc P u v p a) (hh : Enc P u v h b) (hs : Enc P u v s c) :
    Above34 a b c := by
  obtain ⟨k1, k2⟩ := gd_true k
  constructor
  · obtain ⟨z, hz, k⟩ := p34h_sound hP hu hv k1 hh
    obtain ⟨w, hw, k⟩ := lin_sub hP hu hv hp hz k
    linarith [pos_sound hP hu hv k hw]
  · obtain ⟨z, hz, k⟩ := p34s_sound hP hu hv k2 hs
    obtain ⟨w, hw, k⟩ := lin_sub hP hu hv hp hz k
    linarith [pos_sound hP hu hv k hw]

theorem posN_sound {n : Co} {w : TM} (hn : n.neg = true) (k : posN P n g w = true) (hg : Enc P u v g m) (hm : 0 ≤ m)
    (hw : Enc P u v w a) : 0 < a := by
  rcases orB_true k with k | k
  · exact pos_sound hP hu hv k hw
  · obtain ⟨w, hw, k⟩ := lin_sound hP hu hv (.cons hw (.cons hg .nil)) k
    have := pos_sound hP hu hv k hw
    obtain ⟨q, r, d⟩ := n
    subst hn
    have h1 : 0 ≤ (r : ℝ) / d * m := by positivity
    simp only [linV, List.map_cons, List.map_nil, List.sum_cons, List.sum_nil, List.getD_cons_zero, List.getD_cons_succ,
      Co.val, cond_true, cond_false] at this
    norm_num at this
    linarith

theorem ck34N_sound {n : Co} (hn : n.neg = true) (k : ck34N P n g p h s = true) (hg : Enc P u v g m) (hm : 0 ≤ m)
    (hp : Enc P u v p a) (hh : Enc P u v h b) (hs : Enc P u v s c) : Above34 a b c := by
  obtain ⟨k1, k2⟩ := gd_true k
  constructor
  · obtain ⟨z, hz, k⟩ := p34h_sound hP hu hv k1 hh
    obtain ⟨w, hw, k⟩ := lin_sub hP hu hv hp hz k
    linarith [posN_sound hP hu hv hn k hg hm hw]
  · obtain ⟨z, hz, k⟩ := p34s_sound hP hu hv k2 hs
    obtain ⟨w, hw, k⟩ := lin_sub hP hu hv hp hz k
    linarith [posN_sound hP hu hv hn k hg hm hw]
end
end

section
variable {P : Par} (hP : P.Ok) {B : Bnd}
include hP

theorem kRec_ok : BodyOk P (kRec P B) (RRec B) := by
  intro u v hu hv d t x y hd ht h hx hi hg
  exfalso
  obtain ⟨-, xs, ys, c, ti, p, -, -, -, hti, hp, h⟩ := st3t_sound hP hu hv h hd ht hx
  rcases kBnd_sound hP hu hv h hp with h | h
  · exact h hi
  obtain ⟨g, hg', h⟩ := pBg_sound hP hu hv h hti hp
  linarith [npos_sound hP hu hv h hg']

theorem kSubq_ok : BodyOk P (kSubq P B) (RSubq B) := by
  intro u v hu hv d t x y hd ht h hx hi hg hl
  exfalso
  obtain ⟨-, xs, ys, c, ti, p, -, -, -, hti, hp, h⟩ := st3t_sound hP hu hv h hd ht hx
  rcases kBnd_sound hP hu hv h hp with h | h
  · exact h hi
  obtain ⟨t2, g, ht2, hg', h⟩ := gLiq_sound hP hu hv h hti hp
  rcases orB_true h with h | h
  · linarith [npos_sound hP hu hv h hg']
  obtain ⟨w, hw, h⟩ := lin_sound hP hu hv (.cons ht2 (.cons hti (.cons (enc_one hP) (.cons hd .nil)))) h
  have := pos_sound hP hu hv h hw
  generalize y⁻¹ = z at *
  norm_num [linV, Co.val] at this
  unfold lnv at hl
  norm_num at hl
  linarith

theorem kSubw_ok : BodyOk P (kSubw P B) (RSubw B) := by
  intro u v hu hv d t x y hd ht h hx hi hg hb
  exfalso
  obtain ⟨-, xs, ys, c, ti, p, -, -, -, hti, hp, h⟩ := st3t_sound hP hu hv h hd ht hx
  rcases kBnd_sound hP hu hv h hp with h | h
  · exact h hi
  obtain ⟨t2, g, ht2, hg', h⟩ := gVap_sound hP hu hv h hti hp
  rcases orB_true h with h | h
  · linarith [npos_sound hP hu hv h hg']
  obtain ⟨g, hg', h⟩ := pBg_sound hP hu hv h hti hp
  linarith [npos_sound hP hu hv h hg']

theorem kSubv_ok : BodyOk P (kSubv P B) (RSubv B) := by
  intro u v hu hv d t x y hd ht h hx hi hg hb hl
  exfalso
  obtain ⟨-, xs, ys, c, ti, p, -, -, -, hti, hp, h⟩ := st3t_sound hP hu hv h hd ht hx
  rcases kBnd_sound hP hu hv h hp with h | h
  · exact h hi
  obtain ⟨t2, g, ht2, hg', h⟩ := gVap_sound hP hu hv h hti hp
  rcases orB_true h with h | h
  · linarith [npos_sound hP hu hv h hg']
  rcases orB_true h with h | h
  · obtain ⟨g, hg', h⟩ := pBg_sound hP hu hv h hti hp
    linarith [npos_sound hP hu hv h hg']
  obtain ⟨w, hw, h⟩ := lin_sound hP hu hv (.cons ht2 (.cons hti (.cons (enc_one hP) (.cons hd .nil)))) h
  have := pos_sound hP hu hv h hw
  generalize y⁻¹ = z at *
  norm_num [linV, Co.val] at this
  unfold lnv at hl
  norm_num at hl
  linarith

variable {l : LogC} (hl : l.Ok)
include hl

theorem bRec_ok : BodyOk P (bRec P l B) (RRec B) := by
  intro u v hu hv d t x y hd ht h hx _ _
  obtain ⟨ti, p, z, w, hti, hp, hz, hw, h⟩ := hs3_sound hP hu hv hl h hd ht hx
  obtain ⟨q, hq, h⟩ := x100_sound hP hu hv h hp
  have h := gd_true h
  exact ⟨ck13_sound hP hu hv h.1 hq hz hw, ck32_sound hP hu hv h.2 hq hz hw⟩

theorem bRecL_ok : BodyOk P (bRecL P l B) (RRec B) := by
  intro u v hu hv d t x y hd ht h hx _ hg0
  obtain ⟨ti, p, z, w, hti, hp, hz, hw, h⟩ := hs3_sound hP hu hv hl h hd ht hx
  obtain ⟨q, hq, h⟩ := x100_sound hP hu hv h hp
  have h := gd_true h
  obtain ⟨g, hg, h'⟩ := pBg_sound hP hu hv h.2 hti hp
  exact ⟨ck13_sound hP hu hv h.1 hq hz hw, ck32L_sound hP hu hv h' hd hg hg0 hq hz hw⟩

theorem bSub_ok : BodyOk P (bSub P l B) fun x y => 0 < x → Sub3 B x y := by
  intro u v hu hv d t x y hd ht h hx
  obtain ⟨ti, p, z, w, hti, hp, hz, hw, h⟩ := hs3_sound hP hu hv hl h hd ht hx
  obtain ⟨q, hq, h⟩ := x100_sound hP hu hv h hp
  obtain ⟨h1, h⟩ := gd_true h
  obtain ⟨h2, h⟩ := gd_true h
  exact ⟨ck13_sound hP hu hv h1 hq hz hw, ck34_sound hP hu hv h2 hp hz hw, ck32_sound hP hu hv h hq hz hw⟩

theorem bSubL_ok : BodyOk P (bSubL P l B) fun x y => 0 < x → 0 ≤ gB x y → Sub3 B x y := by
  intro u v hu hv d t x y hd ht h hx hg0
  obtain ⟨ti, p, z, w, hti, hp, hz, hw, h⟩ := hs3_sound hP hu hv hl h hd ht hx
  obtain ⟨q, hq, h⟩ := x100_sound hP hu hv h hp
  obtain ⟨h1, h⟩ := gd_true h
  obtain ⟨h2, h⟩ := gd_true h
  obtain ⟨g, hg, h⟩ := pBg_sound hP hu hv h hti hp
  exact ⟨ck13_sound hP hu hv h1 hq hz hw, ck34_sound hP hu hv h2 hp hz hw, ck32L_sound hP hu hv h hd hg hg0 hq hz hw⟩

theorem bSubq_ok (hn : B.nq.neg = true) : BodyOk P (bSubq P l B) fun x y => 0 < x → 0 ≤ gL x y → Sub3 B x y := by
  intro u v hu hv d t x y hd ht h hx hg0
  obtain ⟨ti, p, z, w, hti, hp, hz, hw, h⟩ := hs3_sound hP hu hv hl h hd ht hx
  obtain ⟨q, hq, h⟩ := x100_sound hP hu hv h hp
  obtain ⟨h1, h⟩ := gd_true h
  obtain ⟨h2, h⟩ := gd_true h
  obtain ⟨_, g, -, hg, h2⟩ := gLiq_sound hP hu hv h2 hti hp
  exact ⟨ck13_sound hP hu hv h1 hq hz hw, ck34N_sound hP hu hv hn h2 hg hg0 hp hz hw, ck32_sound hP hu hv h hq hz hw⟩

theorem bSubv_ok (hn : B.nv.neg = true) : BodyOk P (bSubv P l B) fun x y => 0 < x → 0 ≤ gV x y → Sub3 B x y := by
  intro u v hu hv d t x y hd ht h hx hg0
  obtain ⟨ti, p, z, w, hti, hp, hz, hw, h⟩ := hs3_sound hP hu hv hl h hd ht hx
  obtain ⟨q, hq, h⟩ := x100_sound hP hu hv h hp
  obtain ⟨h1, h⟩ := gd_true h
  obtain ⟨h2, h⟩ := gd_true h
  obtain ⟨_, g, -, hg, h2⟩ := gVap_sound hP hu hv h2 hti hp
  exact ⟨ck13_sound hP hu hv h1 hq hz hw, ck34N_sound hP hu hv hn h2 hg hg0 hp hz hw, ck32_sound hP hu hv h hq hz hw⟩
end

/-! the borders -/

theorem bE13_ok {P : Par} (hP : P.Ok) {B : Bnd} : BodyOk P (bE13 P B) (RE13 B) := by
  intro u v hu hv p t x y hp ht h
  obtain ⟨xs, ys, hxs, hys, hy0, h⟩ := st1_sound hP hu hv h hp ht
  obtain ⟨g, hg, h⟩ := poly_sound0 hP hu hv hxs hys h
  obtain ⟨g0, hg0, h⟩ := poly_sound0 hP hu hv hxs hys h
  rw [tg1_val] at hg
  rw [t01_val] at hg0
  obtain ⟨gy, hgy, h⟩ := mul_sound hP hu hv h hg ht
  obtain ⟨q, hq, h⟩ := x100_sound hP hu hv h hp
  obtain ⟨z, hz, h⟩ := lin_sound hP hu hv (.cons hg .nil) h
  obtain ⟨w, hw, h⟩ := lin_sound hP hu hv (.cons hgy (.cons hg0 .nil)) h
  obtain ⟨h1, h2⟩ := gd_true h
  have h1 := below_sound hP hu hv h1 hq hz
  have h2 := below_sound hP hu hv h2 hq hw
  unfold RE13
  generalize G1.gt (x / 16.53) y = a at *
  generalize G1.g (x / 16.53) y = b at *
  constructor
  · convert h1 using 1; norm_num [linV, Co.val]
  · convert h2 using 1; norm_num [linV, Co.val]; ring

theorem bE32_ok {P : Par} (hP : P.Ok) {B : Bnd} {K : Scl} (hK : K.Ok) {l : LogC} (hl : l.Ok) :
    BodyOk P (bE32 P K l B) (RE32 B) := by
  obtain ⟨xn, xd, yn, yd, t0, tg⟩ := K
  intro u v hu hv th t x y hth _ h
  unfold bE32 at h
  obtain ⟨h0, tau, htau, h⟩ := inv_sound hP hu hv h hth
  obtain ⟨x2, hx2, h⟩ := mul_sound hP hu hv h hth hth
  obtain ⟨p, hp, h⟩ := lin_sound hP hu hv (.cons hx2 (.cons hth (.cons (enc_one hP) .nil))) h
  obtain ⟨p, hp, h⟩ := refresh_sound hP h hp
  have ep : linV [x * x, x, 1] [(0, ⟨false, 3715337579334327, 12500000000000⟩),
      (1, ⟨true, 3939252709491650143230857073, 6250000000000000000000000⟩),
      (2, ⟨false, 4350648203621117816130341264681250431527, 12500000000000000000000000000000000000⟩)] = b23p x := by
    unfold b23p; norm_num [linV, Co.val]; ring
  rw [ep] at hp
  obtain ⟨-, xs, ys, ts, hxs, hys, hts, h⟩ := st2_sound hP hu hv hK.yn h hp htau
  obtain ⟨g0, hg0, h⟩ := lin_sound hP hu hv hts h
  obtain ⟨f0, hf0, h⟩ := lin_sound hP hu hv hts h
  obtain ⟨gr, hgr, h⟩ := poly_sound0 hP hu hv hxs hys h
  obtain ⟨g, hg, h⟩ := lin_sound hP hu hv (.cons hg0 (.cons hgr .nil)) h
  obtain ⟨g, hg, h⟩ := refresh_sound hP h hg
  obtain ⟨fr, hfr, h⟩ := poly_sound0 hP hu hv hxs hys h
  obtain ⟨-, lg, hlg, h⟩ := logT_sound hP hu hv hl h hp
  obtain ⟨m, hm, h⟩ := mul_sound hP hu hv h htau hg
  obtain ⟨q, hq, h⟩ := x100_sound hP hu hv h hp
  obtain ⟨z, hz, h⟩ := lin_sound hP hu hv (.cons hg .nil) h
  obtain ⟨w, hw, h⟩ := lin_sound hP hu hv (.cons hm (.cons hf0 (.cons hfr (.cons hlg .nil)))) h
  obtain ⟨h1, h2⟩ := gd_true h
  have h1 := above_sound hP hu hv h1 hq hz
  have h2 := above_sound hP hu hv h2 hq hw
  rw [ti2_val, tg2_val hK] at h1 h2
  rw [ti02_val, t02_val hK] at h2
  have e1 : G2.gt (b23p x) x⁻¹ = idealSum1 r2_n0 r2_J0 9 x⁻¹ + poly_j_powi (b23p x) (x⁻¹ - 0.5) r2_IJn := rfl
  have e2 : G2.g (b23p x) x⁻¹ = Real.log (b23p x) + idealSum r2_n0 r2_J0 9 x⁻¹ + poly_powi (b23p x) (x⁻¹ - 0.5) r2_IJn := rfl
  unfold RE32
  rw [e1, e2]
  generalize idealSum1 r2_n0 r2_J0 9 x⁻¹ = a1 at *
  generalize idealSum r2_n0 r2_J0 9 x⁻¹ = a2 at *
  generalize (poly_j_powi _ _ _ : ℝ) = a3 at *
  generalize (poly_powi _ _ _ : ℝ) = a4 at *
  generalize Real.log _ = a5 at *
  generalize b23p x = b at *
  constructor
  · convert h1 using 1
    norm_num [linV, Co.val]
  · convert h2 using 1
    norm_num [linV, Co.val]; ring

section
variable {B : Bnd} {xr yr xc D yc E : ℕ}

theorem okE13 (t : Tr4) (h : chk xr yr xc D yc E (vE13 B xr yr t) = true) : Good (RE13 B) xr yr xc D yc E :=
  chk_sound (leafB_ok P12_ok (bE13_ok P12_ok)) never_ok never_ok never_ok h

theorem okE32 {K : Scl} (hK : K.Ok) {l : LogC} (hl : l.Ok) (t : Tr4)
    (h : chk xr yr xc D yc E (vE32 K l B xr yr t) = true) : Good (RE32 B) xr yr xc D yc E :=
  chk_sound (leafB_ok P64_ok (bE32_ok P64_ok hK hl)) never_ok never_ok never_ok h

variable {l : LogC} (hl : l.Ok)
include hl

theorem okRec (t : Tr4) (h : chk xr yr xc D yc E (vRec l B xr yr t) = true) : Good (RRec B) xr yr xc D yc E :=
  chk_sound (leafB_ok P64_ok (kRec_ok P64_ok)) (leafB_ok P64_ok (bRec_ok P64_ok hl))
    (leafB_ok P64_ok (bRecL_ok P64_ok hl)) (leafB_ok P64_ok (kRec_ok P64_ok)) h

theorem okSubq (t : Tr4) (h : chk xr yr xc D yc E (vSubq l B xr yr t) = true) (hn : B.nq.neg = true := by rfl) :
    Good (RSubq B) xr yr xc D yc E :=
  chk_sound (leafB_ok P64_ok (kSubq_ok P64_ok)) (leafB_ok P64_ok ((bSub_ok P64_ok hl).imp fun _ _ k a _ _ _ => k a))
    (leafB_ok P64_ok ((bSub_ok P64_ok hl).imp fun _ _ k a _ _ _ => k a))
    (leafB_ok P64_ok ((bSubq_ok P64_ok hl hn).imp fun _ _ k a _ b _ => k a b)) h

theorem okSubv (t : Tr4) (h : chk xr yr xc D yc E (vSubv l B xr yr t) = true) (hn : B.nv.neg = true := by rfl) :
    Good (RSubv B) xr yr xc D yc E :=
  chk_sound (leafB_ok P64_ok (kSubv_ok P64_ok)) (leafB_ok P64_ok ((bSub_ok P64_ok hl).imp fun _ _ k a _ _ _ _ => k a))
    (leafB_ok P64_ok ((bSubL_ok P64_ok hl).imp fun _ _ k a _ _ b _ => k a b))
    (leafB_ok P64_ok ((bSubv_ok P64_ok hl hn).imp fun _ _ k a _ b _ _ => k a b)) h

theorem okSubw (t : Tr4) (h : chk xr yr xc D yc E (vSubw l B xr yr t) = true) (hn : B.nv.neg = true := by rfl) :
    Good (RSubw B) xr yr xc D yc E :=
  chk_sound (leafB_ok P64_ok (kSubw_ok P64_ok)) (leafB_ok P64_ok ((bSub_ok P64_ok hl).imp fun _ _ k a _ _ _ => k a))
    (leafB_ok P64_ok ((bSubL_ok P64_ok hl).imp fun _ _ k a _ _ b => k a b))
    (leafB_ok P64_ok ((bSubv_ok P64_ok hl hn).imp fun _ _ k a _ b _ => k a b)) h
end

end If97.Tm

/-! Recognition of region 3: the whole bands (generated). -/

namespace If97.Tm

theorem e13_0_root : Good (RE13 bd0) 7936 0 52064 2000 27720 12463 := okE13 e13_0_t e13_0_c
theorem e32_0_root : Good (RE32 bd0) 67065 0 2518679 2000000 1 1 := okE32 sk9_ok lcB0_ok e32_0_t e32_0_c
theorem e13_1_root : Good (RE13 bd1) 15000 0 75000 2000 27720 12463 := okE13 e13_1_t e13_1_c
theorem e32_1_root : Good (RE32 bd1) 90774 0 2676512 2000000 1 1 := okE32 sk10_ok lcB1_ok e32_1_t e32_1_c
theorem e13_2_root : Good (RE13 bd2) 25000 0 115000 2000 27720 12463 := okE13 e13_2_t e13_2_c
theorem e32_2_root : Good (RE32 bd2) 111004 0 2878284 2000000 1 1 := okE32 sk11_ok lcB2_ok e32_2_t e32_2_c
theorem e13_3_root : Good (RE13 bd3) 30000 0 170000 2000 27720 12463 := okE13 e13_3_t e13_3_c
theorem e32_3_root : Good (RE32 bd3) 103786 0 3093068 2000000 1 1 := okE32 sk11_ok lcB3_ok e32_3_t e32_3_c
theorem e13_4_root : Good (RE13 bd4) 2000 0 35000 2000 27720 12463 := okE13 e13_4_t e13_4_c
theorem e32_4_root : Good (RE32 bd4) 30963 0 2337873 2000000 1 1 := okE32 sk9_ok lcB4_ok e32_4_t e32_4_c
theorem e13_5_root : Good (RE13 bd5) 3564 0 40564 2000 27720 12463 := okE13 e13_5_t e13_5_c
theorem e32_5_root : Good (RE32 bd5) 41395 0 2410225 2000000 1 1 := okE32 sk9_ok lcB5_ok e32_5_t e32_5_c
theorem rec_0_0_root : Good (RRec bd0) 300000 288659 300000 2000000 1788041 2000000 := okRec lcR1_ok rec_0_0_t rec_0_0_c
theorem rec_0_1_root : Good (RRec bd0) 200000 288659 800000 2000000 1788041 2000000 := okRec lcR1_ok rec_0_1_t rec_0_1_c
theorem rec_0_2_root : Good (RRec bd0) 300000 288659 1300000 2000000 1788041 2000000 := okRec lcR2_ok rec_0_2_t rec_0_2_c
theorem rec_0_3_root : Good (RRec bd0) 400000 288659 2000000 2000000 1788041 2000000 := okRec lcR3_ok rec_0_3_t rec_0_3_c
theorem rec_0_4_root : Good (RRec bd0) 500000 288659 2900000 2000000 1788041 2000000 := okRec lcR4_ok rec_0_4_t rec_0_4_c
theorem rec_0_5_root : Good (RRec bd0) 800000 288659 4200000 2000000 1788041 2000000 := okRec lcR5_ok rec_0_5_t rec_0_5_c
theorem rec_1_0_root : Good (RRec bd1) 300000 288659 300000 2000000 1788041 2000000 := okRec lcR1_ok rec_1_0_t rec_1_0_c
theorem rec_1_1_root : Good (RRec bd1) 200000 288659 800000 2000000 1788041 2000000 := okRec lcR1_ok rec_1_1_t rec_1_1_c
theorem rec_1_2_root : Good (RRec bd1) 300000 288659 1300000 2000000 1788041 2000000 := okRec lcR2_ok rec_1_2_t rec_1_2_c
theorem rec_1_3_root : Good (RRec bd1) 400000 288659 2000000 2000000 1788041 2000000 := okRec lcR3_ok rec_1_3_t rec_1_3_c
theorem rec_1_4_root : Good (RRec bd1) 500000 288659 2900000 2000000 1788041 2000000 := okRec lcR4_ok rec_1_4_t rec_1_4_c
theorem rec_1_5_root : Good (RRec bd1) 800000 288659 4200000 2000000 1788041 2000000 := okRec lcR5_ok rec_1_5_t rec_1_5_c
theorem rec_2_0_root : Good (RRec bd2) 300000 288659 300000 2000000 1788041 2000000 := okRec lcR1_ok rec_2_0_t rec_2_0_c
theorem rec_2_1_root : Good (RRec bd2) 200000 288659 800000 2000000 1788041 2000000 := okRec lcR1_ok rec_2_1_t rec_2_1_c
theorem rec_2_2_root : Good (RRec bd2) 300000 288659 1300000 2000000 1788041 2000000 := okRec lcR2_ok rec_2_2_t rec_2_2_c
theorem rec_2_3_root : Good (RRec bd2) 400000 288659 2000000 2000000 1788041 2000000 := okRec lcR3_ok rec_2_3_t rec_2_3_c
theorem rec_2_4_root : Good (RRec bd2) 500000 288659 2900000 2000000 1788041 2000000 := okRec lcR4_ok rec_2_4_t rec_2_4_c
theorem rec_2_5_root : Good (RRec bd2) 800000 288659 4200000 2000000 1788041 2000000 := okRec lcR5_ok rec_2_5_t rec_2_5_c
theorem rec_3_0_root : Good (RRec bd3) 300000 288659 300000 2000000 1788041 2000000 := okRec lcR1_ok rec_3_0_t rec_3_0_c
theorem rec_3_1_root : Good (RRec bd3) 200000 288659 800000 2000000 1788041 2000000 := okRec lcR1_ok rec_3_1_t rec_3_1_c
theorem rec_3_2_root : Good (RRec bd3) 300000 288659 1300000 2000000 1788041 2000000 := okRec lcR2_ok rec_3_2_t rec_3_2_c
theorem rec_3_3_root : Good (RRec bd3) 400000 288659 2000000 2000000 1788041 2000000 := okRec lcR3_ok rec_3_3_t rec_3_3_c
theorem rec_3_4_root : Good (RRec bd3) 500000 288659 2900000 2000000 1788041 2000000 := okRec lcR4_ok rec_3_4_t rec_3_4_c
theorem rec_3_5_root : Good (RRec bd3) 800000 288659 4200000 2000000 1788041 2000000 := okRec lcR5_ok rec_3_5_t rec_3_5_c
theorem subq_0_0_root : Good (RSubq bd4) 200000 38350 2200000 2000000 2038350 2000000 := okSubq lcR3_ok subq_0_0_t subq_0_0_c
theorem subq_0_1_root : Good (RSubq bd4) 500000 38350 2900000 2000000 2038350 2000000 := okSubq lcR4_ok subq_0_1_t subq_0_1_c
theorem subq_0_2_root : Good (RSubq bd4) 800000 38350 4200000 2000000 2038350 2000000 := okSubq lcR5_ok subq_0_2_t subq_0_2_c
theorem subq_1_0_root : Good (RSubq bd5) 200000 38350 2200000 2000000 2038350 2000000 := okSubq lcR3_ok subq_1_0_t subq_1_0_c
theorem subq_1_1_root : Good (RSubq bd5) 500000 38350 2900000 2000000 2038350 2000000 := okSubq lcR4_ok subq_1_1_t subq_1_1_c
theorem subq_1_2_root : Good (RSubq bd5) 800000 38350 4200000 2000000 2038350 2000000 := okSubq lcR5_ok subq_1_2_t subq_1_2_c
theorem subv_0_0_root : Good (RSubv bd4) 300000 38350 300000 2000000 2038350 2000000 := okSubv lcR1_ok subv_0_0_t subv_0_0_c
theorem subv_0_1_root : Good (RSubv bd4) 200000 38350 800000 2000000 2038350 2000000 := okSubv lcR1_ok subv_0_1_t subv_0_1_c
theorem subv_0_2_root : Good (RSubv bd4) 300000 38350 1300000 2000000 2038350 2000000 := okSubv lcR2_ok subv_0_2_t subv_0_2_c
theorem subv_0_3_root : Good (RSubv bd4) 200000 38350 1800000 2000000 2038350 2000000 := okSubv lcR3_ok subv_0_3_t subv_0_3_c
theorem subv_1_0_root : Good (RSubv bd5) 300000 38350 300000 2000000 2038350 2000000 := okSubv lcR1_ok subv_1_0_t subv_1_0_c
theorem subv_1_1_root : Good (RSubv bd5) 200000 38350 800000 2000000 2038350 2000000 := okSubv lcR1_ok subv_1_1_t subv_1_1_c
theorem subv_1_2_root : Good (RSubv bd5) 300000 38350 1300000 2000000 2038350 2000000 := okSubv lcR2_ok subv_1_2_t subv_1_2_c
theorem subv_1_3_root : Good (RSubv bd5) 200000 38350 1800000 2000000 2038350 2000000 := okSubv lcR3_ok subv_1_3_t subv_1_3_c
theorem subw_0_0_root : Good (RSubw bd4) 300000 24000 300000 2000000 1976000 2000000 := okSubw lcR1_ok subw_0_0_t subw_0_0_c
theorem subw_0_1_root : Good (RSubw bd4) 200000 24000 800000 2000000 1976000 2000000 := okSubw lcR1_ok subw_0_1_t subw_0_1_c
theorem subw_0_2_root : Good (RSubw bd4) 300000 24000 1300000 2000000 1976000 2000000 := okSubw lcR2_ok subw_0_2_t subw_0_2_c
theorem subw_0_3_root : Good (RSubw bd4) 400000 24000 2000000 2000000 1976000 2000000 := okSubw lcR3_ok subw_0_3_t subw_0_3_c
theorem subw_0_4_root : Good (RSubw bd4) 500000 24000 2900000 2000000 1976000 2000000 := okSubw lcR4_ok subw_0_4_t subw_0_4_c
theorem subw_0_5_root : Good (RSubw bd4) 800000 24000 4200000 2000000 1976000 2000000 := okSubw lcR5_ok subw_0_5_t subw_0_5_c
theorem subw_1_0_root : Good (RSubw bd5) 300000 24000 300000 2000000 1976000 2000000 := okSubw lcR1_ok subw_1_0_t subw_1_0_c
theorem subw_1_1_root : Good (RSubw bd5) 200000 24000 800000 2000000 1976000 2000000 := okSubw lcR1_ok subw_1_1_t subw_1_1_c
theorem subw_1_2_root : Good (RSubw bd5) 300000 24000 1300000 2000000 1976000 2000000 := okSubw lcR2_ok subw_1_2_t subw_1_2_c
theorem subw_1_3_root : Good (RSubw bd5) 400000 24000 2000000 2000000 1976000 2000000 := okSubw lcR3_ok subw_1_3_t subw_1_3_c
theorem subw_1_4_root : Good (RSubw bd5) 500000 24000 2900000 2000000 1976000 2000000 := okSubw lcR4_ok subw_1_4_t subw_1_4_c
theorem subw_1_5_root : Good (RSubw bd5) 800000 24000 4200000 2000000 1976000 2000000 := okSubw lcR5_ok subw_1_5_t subw_1_5_c

end If97.Tm
