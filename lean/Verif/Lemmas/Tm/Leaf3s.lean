import Verif.Lemmas.Tm.Leaf3t
import Verif.Lemmas.Tm.Comp.Region3s

/-! Region 3 below the critical temperature and the critical pressure: what `Comp/Region3s.lean` checks. -/

namespace If97.Tm

theorem orB_true {a b : Bool} (h : orB a b = true) : a = true ∨ b = true := by
  cases a
  · exact .inr h
  · exact .inl rfl

/-- 16 u - u²/3 with u = 647.096 (1 - z), in units of 322 kg/m³ -/
noncomputable def lnv (z : ℝ) : ℝ := (16 * (647.096 * (1 - z)) - (647.096 * (1 - z)) ^ 2 / 3) / 322

/-- liquid: up to 22.064 MPa, denser than 322 + 16 u - u²/3, above a minorant of the saturation pressure -/
def InLiq (x y : ℝ) : Prop :=
  0 < x ∧ pP x y ≤ 22.064 ∧ 1 + lnv y⁻¹ ≤ x ∧ (2.675 * y⁻¹ ^ 2 - 1.1753 * y⁻¹ + 0.66744) ^ 4 ≤ pP x y

/-- vapour: above B23, less dense than 322 - 16 u + u²/3, below a majorant of the saturation pressure -/
def InVap (x y : ℝ) : Prop :=
  0 < x ∧ 33344807036256208198847 / 78125000000000000000 * y⁻¹ ^ 2 - 37764069204461513 / 50000000000000 * y⁻¹ +
    34805185628969 / 100000000000 ≤ pP x y ∧ x ≤ 1 - lnv y⁻¹ ∧
  pP x y ≤ (2.675 * y⁻¹ ^ 2 - 1.1753 * y⁻¹ + 0.66763) ^ 4 ∧ 0 ≤ pP x y ∧ pP x y ≤ 100

section
variable {P : Par} (hP : P.Ok)
include hP

theorem kLiq_ok {R : ℝ → ℝ → Prop} : BodyOk P (kLiq P) fun x y => InLiq x y → R x y := by
  intro u v hu hv d t x y hd ht h ⟨hx, h1, h2, h3⟩
  exfalso
  obtain ⟨-, xs, ys, c, ti, p, -, -, -, hti, hp, h⟩ := st3t_sound hP hu hv h hd ht hx
  rcases orB_true h with h | h
  · obtain ⟨w, hw, h⟩ := lin_sound hP hu hv (.cons hp (.cons (enc_one hP) .nil)) h
    have := pos_sound hP hu hv h hw
    norm_num [linV, Co.val] at this h1; linarith
  obtain ⟨t2, ht2, h⟩ := mul_sound hP hu hv h hti hti
  rcases orB_true h with h | h
  · obtain ⟨w, hw, h⟩ := lin_sound hP hu hv (.cons ht2 (.cons hti (.cons (enc_one hP) (.cons hd .nil)))) h
    have := pos_sound hP hu hv h hw
    generalize y⁻¹ = z at *
    norm_num [linV, Co.val] at this
    unfold lnv at h2
    norm_num at h2
    linarith
  · obtain ⟨b, hb, h⟩ := lin_sound hP hu hv (.cons ht2 (.cons hti (.cons (enc_one hP) .nil))) h
    obtain ⟨b2, hb2, h⟩ := mul_sound hP hu hv h hb hb
    obtain ⟨b4, hb4, h⟩ := mul_sound hP hu hv h hb2 hb2
    obtain ⟨w, hw, h⟩ := lin_sound hP hu hv (.cons hb4 (.cons hp .nil)) h
    have eb : linV [y⁻¹ * y⁻¹, y⁻¹, 1] [(0, ⟨false, 26750, 10000⟩), (1, ⟨true, 11753, 10000⟩), (2, ⟨false, 66744, 100000⟩)] =
        2.675 * y⁻¹ ^ 2 - 1.1753 * y⁻¹ + 0.66744 := by norm_num [linV, Co.val]; ring
    rw [eb] at hw
    have := pos_sound hP hu hv h hw
    generalize 2.675 * y⁻¹ ^ 2 - 1.1753 * y⁻¹ + 0.66744 = B at *
    norm_num [linV, Co.val] at this
    have e4 : B ^ 4 = B * B * (B * B) := by ring
    linarith

theorem kVap_ok {R : ℝ → ℝ → Prop} : BodyOk P (kVap P) fun x y => InVap x y → R x y := by
  intro u v hu hv d t x y hd ht h ⟨hx, h1, h2, h3, _⟩
  exfalso
  obtain ⟨-, xs, ys, c, ti, p, -, -, -, hti, hp, h⟩ := st3t_sound hP hu hv h hd ht hx
  obtain ⟨t2, ht2, h⟩ := mul_sound hP hu hv h hti hti
  rcases orB_true h with h | h
  · obtain ⟨w, hw, h⟩ := lin_sound hP hu hv (.cons ht2 (.cons hti (.cons (enc_one hP) (.cons hp .nil)))) h
    have := pos_sound hP hu hv h hw
    generalize y⁻¹ = z at *
    norm_num [linV, Co.val] at this
    linarith
  rcases orB_true h with h | h
  · obtain ⟨w, hw, h⟩ := lin_sound hP hu hv (.cons ht2 (.cons hti (.cons (enc_one hP) (.cons hd .nil)))) h
    have := pos_sound hP hu hv h hw
    generalize y⁻¹ = z at *
    norm_num [linV, Co.val] at this
    unfold lnv at h2
    norm_num at h2
    linarith
  · obtain ⟨b, hb, h⟩ := lin_sound hP hu hv (.cons ht2 (.cons hti (.cons (enc_one hP) .nil))) h
    obtain ⟨b2, hb2, h⟩ := mul_sound hP hu hv h hb hb
    obtain ⟨b4, hb4, h⟩ := mul_sound hP hu hv h hb2 hb2
    obtain ⟨w, hw, h⟩ := lin_sound hP hu hv (.cons hb4 (.cons hp .nil)) h
    have eb : linV [y⁻¹ * y⁻¹, y⁻¹, 1] [(0, ⟨false, 26750, 10000⟩), (1, ⟨true, 11753, 10000⟩), (2, ⟨false, 66763, 100000⟩)] =
        2.675 * y⁻¹ ^ 2 - 1.1753 * y⁻¹ + 0.66763 := by norm_num [linV, Co.val]; ring
    rw [eb] at hw
    have := pos_sound hP hu hv h hw
    generalize 2.675 * y⁻¹ ^ 2 - 1.1753 * y⁻¹ + 0.66763 = B at *
    norm_num [linV, Co.val] at this
    have e4 : B ^ 4 = B * B * (B * B) := by ring
    linarith

end

private theorem inP_of {x y : ℝ} (h1 : 0 < x) (h2 : 0 ≤ pP x y) (h3 : pP x y ≤ 100) :
    InP ⟨false, 0, 1⟩ ⟨false, 0, 1⟩ ⟨false, 0, 1⟩ x y := ⟨h1, h3, by simpa [Co.val] using h2⟩

theorem InLiq.inP {x y : ℝ} (h : InLiq x y) : InP ⟨false, 0, 1⟩ ⟨false, 0, 1⟩ ⟨false, 0, 1⟩ x y := by
  obtain ⟨h1, h2, -, h3⟩ := h
  exact inP_of h1 (le_trans (by positivity) h3) (by linarith)

theorem InVap.inP {x y : ℝ} (h : InVap x y) : InP ⟨false, 0, 1⟩ ⟨false, 0, 1⟩ ⟨false, 0, 1⟩ x y :=
  inP_of h.1 h.2.2.2.2.1 h.2.2.2.2.2

def RPh3q (x y : ℝ) : Prop := InLiq x y → ClosePh (647.096 / y) (322 * x)
def RPh3v (x y : ℝ) : Prop := InVap x y → ClosePh (647.096 / y) (322 * x)
def RPs3q (x y : ℝ) : Prop := InLiq x y → ClosePs (647.096 / y) (322 * x)
def RPs3v (x y : ℝ) : Prop := InVap x y → ClosePs (647.096 / y) (322 * x)

section
variable {xr yr xc D yc E : ℕ}

theorem okPh3q (t : Tr4) (h : chk xr yr xc D yc E (vPh3q xr yr t) = true) : Good RPh3q xr yr xc D yc E :=
  have i {x y : ℝ} (g : RPh3 ⟨false, 0, 1⟩ ⟨false, 0, 1⟩ ⟨false, 0, 1⟩ x y) : RPh3q x y := fun k => g k.inP
  chk_sound (leafB_ok P64_ok ((bPh3a_ok P64_ok).imp fun _ _ => i)) (leafB_ok P64_ok ((bPh3b_ok P64_ok).imp fun _ _ => i))
    (leafB_ok P64_ok ((bPh3c_ok P64_ok).imp fun _ _ => i)) (leafB_ok P64_ok (kLiq_ok P64_ok)) h

theorem okPh3v (t : Tr4) (h : chk xr yr xc D yc E (vPh3v xr yr t) = true) : Good RPh3v xr yr xc D yc E :=
  have i {x y : ℝ} (g : RPh3 ⟨false, 0, 1⟩ ⟨false, 0, 1⟩ ⟨false, 0, 1⟩ x y) : RPh3v x y := fun k => g k.inP
  chk_sound (leafB_ok P64_ok ((bPh3a_ok P64_ok).imp fun _ _ => i)) (leafB_ok P64_ok ((bPh3b_ok P64_ok).imp fun _ _ => i))
    (leafB_ok P64_ok ((bPh3c_ok P64_ok).imp fun _ _ => i)) (leafB_ok P64_ok (kVap_ok P64_ok)) h

variable {c : LogC} (hc : c.Ok)
include hc

theorem okPs3q (t : Tr4) (h : chk xr yr xc D yc E (vPs3q c xr yr t) = true) : Good RPs3q xr yr xc D yc E :=
  have i {x y : ℝ} (g : RPs3 ⟨false, 0, 1⟩ ⟨false, 0, 1⟩ ⟨false, 0, 1⟩ x y) : RPs3q x y := fun k => g k.inP
  chk_sound (leafB_ok P64_ok ((bPs3a_ok P64_ok hc).imp fun _ _ => i)) (leafB_ok P64_ok ((bPs3b_ok P64_ok hc).imp fun _ _ => i))
    (leafB_ok P64_ok ((bPs3c_ok P64_ok hc).imp fun _ _ => i)) (leafB_ok P64_ok (kLiq_ok P64_ok)) h

theorem okPs3v (t : Tr4) (h : chk xr yr xc D yc E (vPs3v c xr yr t) = true) : Good RPs3v xr yr xc D yc E :=
  have i {x y : ℝ} (g : RPs3 ⟨false, 0, 1⟩ ⟨false, 0, 1⟩ ⟨false, 0, 1⟩ x y) : RPs3v x y := fun k => g k.inP
  chk_sound (leafB_ok P64_ok ((bPs3a_ok P64_ok hc).imp fun _ _ => i)) (leafB_ok P64_ok ((bPs3b_ok P64_ok hc).imp fun _ _ => i))
    (leafB_ok P64_ok ((bPs3c_ok P64_ok hc).imp fun _ _ => i)) (leafB_ok P64_ok (kVap_ok P64_ok)) h

end

end If97.Tm
