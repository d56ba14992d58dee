import Verif.Lemmas.ApiVal

/-!
# C22 Definitional ratios

First for any number type, in the order of operations of the code: each derived property is
computed from the very numbers the API returns for its ingredients, so the relation holds bitwise
on floats.  Then the textbook forms over the reals, including OALFAP = OPC.
-/

namespace If97
section
variable {F : Type} [Add F] [Sub F] [Mul F] [Div F] [Neg F] [OfScientific F] [Flt F]

/-- Regions 1, 2, 5 through `pt`, any number type. -/
theorem C22_gibbs (r : Int) (hr : GibbsRegion r) (p t : F) :
    ∃ v w kt ec dpdt fi : F,
      Fn.pt.call p t Doc.idV r = some v ∧ Fn.pt.call p t Doc.idW r = some w ∧
      Fn.pt.call p t Doc.idKt r = some kt ∧ Fn.pt.call p t Doc.idEc r = some ec ∧
      Fn.pt.call p t Doc.idDpdt r = some dpdt ∧ Fn.pt.call p t Doc.idFi r = some fi ∧
      Fn.pt.call p t Doc.idD r = some (1.0 / v) ∧
      Fn.pt.call p t Doc.idZ r = some (1000.0 * p * v / 0.461526 / (t + 273.15)) ∧
      Fn.pt.call p t Doc.idKs r = some (1.0e-6 * w * w / v / p) ∧
      Fn.pt.call p t Doc.idPc r = some (1.0 / p * dpdt) ∧
      Fn.pt.call p t Doc.idBetap r = some (1.0 / (p * v * kt)) ∧
      Fn.pt.call p t Doc.idFu r = some (p * fi) ∧
      Fn.pt.call p t Doc.idAlfap r = some (ec / p / kt) := by
  rcases hr with rfl | rfl | rfl <;>
    exact ⟨_, _, _, _, _, _, rfl, rfl, rfl, rfl, rfl, rfl, rfl, rfl, rfl, rfl, rfl, rfl, rfl⟩

/-- Region 3 through `tv`, any number type. -/
theorem C22_region3 (t v : F) :
    ∃ d p w kt ec dpdt fi : F,
      Fn.tv.call t v Doc.idD 3 = some d ∧ Fn.tv.call t v Doc.idP 3 = some p ∧ Fn.tv.call t v Doc.idW 3 = some w ∧
      Fn.tv.call t v Doc.idKt 3 = some kt ∧ Fn.tv.call t v Doc.idEc 3 = some ec ∧
      Fn.tv.call t v Doc.idDpdt 3 = some dpdt ∧ Fn.tv.call t v Doc.idFi 3 = some fi ∧
      d = 1.0 / v ∧
      Fn.tv.call t v Doc.idZ 3 = some (1000.0 * p * (1.0 / d) / 0.461526 / (t + 273.15)) ∧
      Fn.tv.call t v Doc.idKs 3 = some (1.0e-6 * w * w * d / p) ∧
      Fn.tv.call t v Doc.idPc 3 = some (1.0 / p * dpdt) ∧
      Fn.tv.call t v Doc.idBetap 3 = some (d / (p * kt)) ∧
      Fn.tv.call t v Doc.idFu 3 = some (p * fi) ∧
      Fn.tv.call t v Doc.idAlfap 3 = some (ec / p / kt) :=
  ⟨_, _, _, _, _, _, _, rfl, rfl, rfl, rfl, rfl, rfl, rfl, rfl, rfl, rfl, rfl, rfl, rfl, rfl⟩

end

/-- The textbook forms in regions 1, 2, 5. -/
theorem C22_gibbs_real (r : Int) (hr : GibbsRegion r) (p t : ℝ) (h : Regular r p (t + 273.15))
    (hV : valPT r Doc.idV p t ≠ 0) :
    valPT r Doc.idD p t * valPT r Doc.idV p t = 1 ∧
    valPT r Doc.idZ p t * (gasR * (t + 273.15)) = 1000 * p * valPT r Doc.idV p t ∧
    valPT r Doc.idKs p t = 1e-6 * valPT r Doc.idW p t ^ 2 / (p * valPT r Doc.idV p t) ∧
    valPT r Doc.idPc p t = valPT r Doc.idDpdt p t / p ∧
    valPT r Doc.idBetap p t = 1 / (p * valPT r Doc.idV p t * valPT r Doc.idKt p t) ∧
    valPT r Doc.idFu p t = p * valPT r Doc.idFi p t ∧
    valPT r Doc.idAlfap p t = valPT r Doc.idPc p t := by
  have hR := gasR_ne
  have hT := h.2.1.ne'
  have hp := h.1.ne'
  have e1 : (1.0 : ℝ) = 1 := by norm_num
  have e6 : (1.0e-6 : ℝ) = 1e-6 := by norm_num
  have e2 : (1000.0 : ℝ) = 1000 := by norm_num
  obtain ⟨v, w, kt, ec, dpdt, fi, h1, h2, h3, h4, h5, h6, h7, h8, h9, h10, h11, h12, h13⟩ := C22_gibbs r hr p t
  have hd := val_Dpdt hr h
  have hk := val_Kt hr h
  have hc := val_Ec hr h (val_V hr h ▸ hV)
  rw [← val_V hr h] at hk hc
  simp only [valPT, h1, h2, h3, h4, h5, h6, h7, h8, h9, h10, h11, h12, h13, Option.getD_some] at hd hk hc hV ⊢
  refine ⟨?_, ?_, ?_, ?_, ?_, trivial, ?_⟩
  · rw [e1]; field_simp
  · rw [show (0.461526 : ℝ) = gasR from rfl, e2]; field_simp
  · rw [e6]; field_simp
  · rw [e1]; field_simp
  · rw [e1]
  · rw [hd, hk, hc, e1]; field_simp

/-- The textbook forms in region 3. -/
theorem C22_region3_real (t v : ℝ) (hT : 0 < t + 273.15) (hv : 0 < v) :
    valTV Doc.idD t v * v = 1 ∧
    valTV Doc.idZ t v * (gasR * (t + 273.15)) = 1000 * valTV Doc.idP t v * v ∧
    valTV Doc.idKs t v = 1e-6 * valTV Doc.idW t v ^ 2 / (valTV Doc.idP t v * v) ∧
    valTV Doc.idPc t v = valTV Doc.idDpdt t v / valTV Doc.idP t v ∧
    valTV Doc.idBetap t v = 1 / (valTV Doc.idP t v * v * valTV Doc.idKt t v) ∧
    valTV Doc.idFu t v = valTV Doc.idP t v * valTV Doc.idFi t v ∧
    (valTV Doc.idKt t v ≠ 0 → valTV Doc.idAlfap t v = valTV Doc.idPc t v) := by
  have hR := gasR_ne
  have e1 : (1.0 : ℝ) = 1 := by norm_num
  have e6 : (1.0e-6 : ℝ) = 1e-6 := by norm_num
  have e2 : (1000.0 : ℝ) = 1000 := by norm_num
  obtain ⟨d, p, w, kt, ec, dpdt, fi, h1, h2, h3, h4, h5, h6, h7, h8, h9, h10, h11, h12, h13, h14⟩ := C22_region3 t v
  have hd := tv_Dpdt hT hv
  have hk := tv_Kt hT hv
  have hc := tv_Ec hT hv
  simp only [valTV, h1, h2, h3, h4, h5, h6, h7, h9, h10, h11, h12, h13, h14, Option.getD_some] at hd hk hc ⊢
  rw [e1] at *
  refine ⟨?_, ?_, ?_, ?_, ?_, trivial, ?_⟩
  · rw [h8]; field_simp
  · rw [show (0.461526 : ℝ) = gasR from rfl, e2, h8]; field_simp
  · rw [h8, e6]; field_simp
  · field_simp
  · rw [h8]; field_simp
  · intro hk0
    have hD : R3.Dpdv (t + 273.15) (1 / v) ≠ 0 := by
      intro h0; apply hk0; rw [hk, h0]; simp
    rw [hd, hk, hc]; field_simp

/-- Concrete states: the float-independent statement needs no hypothesis; the real one holds e.g. at
16.53 MPa and 1386/3.222 K in region 1, where the volume is not zero. -/
example : valPT 1 Doc.idD 16.53 (1386 / 3.222 - 273.15) * valPT 1 Doc.idV 16.53 (1386 / 3.222 - 273.15) = 1 := by
  have h : Regular 1 16.53 (1386 / 3.222 - 273.15 + 273.15) :=
    ⟨by norm_num, by norm_num, fun _ => by norm_num, fun h => by norm_num at h⟩
  refine (C22_gibbs_real 1 (.inl rfl) _ _ h ?_).1
  rw [val_V (.inl rfl) h]
  simp only [Gr_1, Gibbs.V, G1, gasR, poly_i_powi_sum, r1_IJn]
  norm_num

end If97
