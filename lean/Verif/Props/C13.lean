import Verif.Lemmas.ApiVal

/-!
# C13 Region 3 pressure and entropy are derivatives of the Helmholtz energy

Exact arithmetic; region 3 through `tv(t, v, (o, 3))`.  With v = 1/ρ the relation
1000 p = ρ² (∂f/∂ρ)_T reads 1000 p = −(∂f/∂v)_T; both forms are proved.
-/

namespace If97

/-- 1000·OP = −(∂OF/∂v)_T -/
theorem C13_pressure (t v : ℝ) (hT : 0 < t + 273.15) (hv : 0 < v) :
    HasDerivAt (fun v => valTV Doc.idF t v) (-(1000 * valTV Doc.idP t v)) v :=
  tv_P hT hv ▸ tv_deriv_v hT hv tv_F (R3.dF_dv hT hv)

/-- 1000·OP = ρ²(∂OF/∂ρ)_T at ρ = OD -/
theorem C13_pressure_density (t ρ : ℝ) (hT : 0 < t + 273.15) (hρ : 0 < ρ) :
    HasDerivAt (fun ρ => valTV Doc.idF t (1 / ρ)) (1000 * valTV Doc.idP t (1 / ρ) / ρ ^ 2) ρ ∧
    valTV Doc.idD t (1 / ρ) = ρ := by
  have hv : 0 < 1 / ρ := by positivity
  constructor
  · have h := C13_pressure t (1 / ρ) hT hv
    have hi : HasDerivAt (fun ρ : ℝ => 1 / ρ) (-(ρ ^ 2)⁻¹) ρ :=
      (hasDerivAt_inv hρ.ne').congr_of_eventuallyEq (Filter.Eventually.of_forall fun x => one_div x)
    exact (HasDerivAt.comp ρ h hi).congr_deriv (by field_simp)
  · rw [tv_D hT hv]; field_simp

/-- OS = −(∂OF/∂T)_ρ -/
theorem C13_entropy (t v : ℝ) (hT : 0 < t + 273.15) (hv : 0 < v) :
    HasDerivAt (fun t => valTV Doc.idF t v) (-valTV Doc.idS t v) t :=
  tv_S hT hv ▸ tv_deriv_t hT hv tv_F (R3.dF_dT hT (by positivity))

/-- A concrete state: 650 K, 500 kg/m³. -/
example : HasDerivAt (fun v => valTV Doc.idF 376.85 v) (-(1000 * valTV Doc.idP 376.85 0.002)) 0.002 :=
  C13_pressure 376.85 0.002 (by norm_num) (by norm_num)

end If97
