import Verif.Lemmas.ApiVal

/-!
# C17 Maxwell relations

Exact arithmetic.  (∂s/∂p)_T = −(∂v/∂T)_p in regions 1, 2, 5 and (∂s/∂v)_T = (∂p/∂T)_v in region 3,
between the returned OS and the returned ODVDT / ODPDT.
-/

namespace If97

theorem C17_gibbs (r : Int) (hr : GibbsRegion r) (p t : ℝ) (h : Regular r p (t + 273.15)) :
    HasDerivAt (fun p => valPT r Doc.idS p t) (-(1000 * valPT r Doc.idDvdt p t)) p :=
  val_Dvdt hr h ▸ deriv_p h (val_S hr) (Gibbs.dS_dp (h.smooth hr))

theorem C17_region3 (t v : ℝ) (hT : 0 < t + 273.15) (hv : 0 < v) :
    HasDerivAt (fun v => valTV Doc.idS t v) (1000 * valTV Doc.idDpdt t v) v :=
  tv_Dpdt hT hv ▸ tv_deriv_v hT hv tv_S (R3.dS_dv hT hv)

/-- Concrete states of region 2 and region 3. -/
example : HasDerivAt (fun p => valPT 2 Doc.idS p 26.85) (-(1000 * valPT 2 Doc.idDvdt 0.0035 26.85)) 0.0035 :=
  C17_gibbs 2 (.inr (.inl rfl)) 0.0035 26.85 ⟨by norm_num, by norm_num, by norm_num, by norm_num⟩
example : HasDerivAt (fun v => valTV Doc.idS 376.85 v) (1000 * valTV Doc.idDpdt 376.85 0.002) 0.002 :=
  C17_region3 376.85 0.002 (by norm_num) (by norm_num)

end If97
