import Verif.Spec.PairFn
import Verif.Inst.Real

/-!
# Vocabulary for the thermodynamic properties (exact arithmetic)

`valPT r o p t` is the number the public call `pt(p, t, (o, r))` returns in exact
arithmetic, `valTV o t v` the number `tv(t, v, (o, 3))` returns (region 3 in its own
variables).  `Regular r p T` excludes the few points where the region's equation
divides by zero or takes the logarithm of a non-positive number.
-/

namespace If97

/-- `pt(p, t, (o, r))` over the reals; p in MPa, t in °C. -/
noncomputable def valPT (r o : Int) (p t : ℝ) : ℝ := (Fn.pt.call p t o r).getD (-9999)

/-- `tv(t, v, (o, 3))` over the reals; t in °C, v in m³/kg. -/
noncomputable def valTV (o : Int) (t v : ℝ) : ℝ := (Fn.tv.call t v o 3).getD (-9999)

/-- The regions given by a Gibbs energy g(p,T). -/
def GibbsRegion (r : Int) : Prop := r = 1 ∨ r = 2 ∨ r = 5

/-- The equation of region `r` is defined at (p, T); T in kelvin.  117.363 MPa and 1386/1.222 K
are the poles of the table of region 1, 1080 K the one of region 2; all lie outside the regions. -/
def Regular (r : Int) (p T : ℝ) : Prop :=
  0 < p ∧ 0 < T ∧ (r = 1 → p ≠ 117.363 ∧ T ≠ 1386 / 1.222) ∧ (r = 2 → T ≠ 1080)

/-- specific gas constant of water in kJ/(kg K), IF97 -/
noncomputable def gasR : ℝ := 0.461526

end If97
