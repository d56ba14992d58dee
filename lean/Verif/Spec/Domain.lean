import Mathlib.Analysis.SpecialFunctions.Pow.Real

/-!
# The IF97 region map, written from the release

Independent of the model: equations and limits of IAPWS R7-97(2012), with the two conventions of
this library that are documented with it: pressures start at 0.000611212677444 MPa and a state whose
pressure is within a relative distance 1e-6 of the saturation pressure counts as region 4.
p in MPa, T in kelvin.
-/

namespace If97

/-- The IF97 saturation equation (equation 29):
β²ϑ² + n₁β²ϑ + n₂β² + n₃βϑ² + n₄βϑ + n₅β + n₆ϑ² + n₇ϑ + n₈ = 0 with β = p^(1/4) and
ϑ = T + n₉/(T − n₁₀). -/
def SatEq (p T : ℝ) : Prop :=
  ∃ b x : ℝ, 0 ≤ b ∧ b ^ 4 = p ∧ x = T + (-0.23855557567849) / (T - 650.17534844798) ∧
    b^2 * x^2 + 1167.0521452767 * b^2 * x + (-724213.16703206) * b^2 + (-17.073846940092) * b * x^2 +
    12020.82470247 * b * x + (-3232555.0322333) * b + 14.91510861353 * x^2 + (-4823.2657361591) * x +
    405113.40542057 = 0

namespace Domain

/-- `ps` is the saturation pressure at `T`: the root of the saturation equation on the physical
branch (the equation has a second root above 60 MPa at high temperatures). -/
def IsSat (ps T : ℝ) : Prop := SatEq ps T ∧ ps ≤ 50

/-- the boundary between regions 2 and 3 (equation 5) -/
noncomputable def pB23 (T : ℝ) : ℝ := 348.05185628969 - 1.1671859879975 * T + 0.0010192970039326 * T ^ 2

/-- the same boundary solved for the temperature (equation 6; its published coefficients are rounded, so it
agrees with equation 5 only to about 1e-9 K) -/
noncomputable def TB23 (p : ℝ) : ℝ := 572.54459862746 + Real.sqrt ((p - 13.91883977887) / 0.0010192970039326)

def pMin : ℝ := 0.000611212677444

def PressureOk (p T : ℝ) : Prop := pMin ≤ p ∧ p ≤ 100 ∧ (1073.15 < T → p ≤ 50)
def TemperatureOk (T : ℝ) : Prop := 273.15 ≤ T ∧ T ≤ 2273.15

/-- on the saturation line, within the tolerance -/
def NearSat (p T : ℝ) : Prop := T < 647.096 ∧ ∃ ps, IsSat ps T ∧ |p - ps| / ps < 1e-6

/-- The region map for states inside the limits. -/
inductive Region : ℝ → ℝ → Int → Prop
  | r1 {p T ps} : T ≤ 623.15 → IsSat ps T → ps ≤ p → ¬ NearSat p T → Region p T 1
  | r2_below_sat {p T ps} : T ≤ 623.15 → IsSat ps T → p < ps → ¬ NearSat p T → Region p T 2
  | r2_below_B23 {p T} : 623.15 < T → T ≤ 863.15 → p ≤ pB23 T → ¬ NearSat p T → Region p T 2
  | r2_hot {p T} : 863.15 < T → T ≤ 1073.15 → Region p T 2
  | r3 {p T} : 623.15 < T → T ≤ 863.15 → pB23 T < p → ¬ NearSat p T → Region p T 3
  | r4 {p T} : NearSat p T → Region p T 4
  | r5 {p T} : 1073.15 < T → Region p T 5

end Domain
end If97
