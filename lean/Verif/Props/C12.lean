import Verif.Lemmas.ApiVal

/-!
# C12 Volume and entropy are derivatives of the Gibbs energy

Exact arithmetic; regions 1, 2 and 5; every (p, t) where the equation of the region is
defined.  p in MPa, t in °C, g in kJ/kg, v in m³/kg, hence the factor 1000.
-/

namespace If97

/-- 1000·OV = (∂OG/∂p)_T -/
theorem C12_volume (r : Int) (hr : GibbsRegion r) (p t : ℝ) (h : Regular r p (t + 273.15)) :
    HasDerivAt (fun p => valPT r Doc.idG p t) (1000 * valPT r Doc.idV p t) p :=
  val_V hr h ▸ deriv_p h (val_G hr) (Gibbs.dG_dp (h.smooth hr))

/-- OS = −(∂OG/∂T)_p -/
theorem C12_entropy (r : Int) (hr : GibbsRegion r) (p t : ℝ) (h : Regular r p (t + 273.15)) :
    HasDerivAt (fun t => valPT r Doc.idG p t) (-valPT r Doc.idS p t) t :=
  val_S hr h ▸ deriv_t h (val_G hr) (Gibbs.dG_dT (h.smooth hr) h.2.1.ne')

/-- Every state of the IF97 range of the three regions is a regular point. -/
theorem C12_range (p t : ℝ) (hp : 0 < p) :
    (p ≤ 100 → 0 ≤ t → t ≤ 350 → Regular 1 p (t + 273.15)) ∧
    (0 ≤ t → t ≤ 800 → Regular 2 p (t + 273.15)) ∧
    (0 ≤ t → Regular 5 p (t + 273.15)) := by
  refine ⟨fun h1 h2 h3 => ⟨hp, by linarith, fun _ => ⟨?_, ?_⟩, fun h => by norm_num at h⟩,
    fun h2 h3 => ⟨hp, by linarith, fun h => by norm_num at h, fun _ => ?_⟩,
    fun h2 => ⟨hp, by linarith, fun h => by norm_num at h, fun h => by norm_num at h⟩⟩
  · intro h; norm_num at h; linarith
  · intro h; norm_num at h; linarith
  · intro h; linarith

/-- A concrete state: 3 MPa, 300 K, region 1. -/
example : HasDerivAt (fun p => valPT 1 Doc.idG p 26.85) (1000 * valPT 1 Doc.idV 3 26.85) 3 :=
  C12_volume 1 (.inl rfl) 3 26.85 ((C12_range 3 26.85 (by norm_num)).1 (by norm_num) (by norm_num) (by norm_num))

end If97
