import Verif.Spec.Domain
import Mathlib.Analysis.SpecialFunctions.Log.Basic

/-!
# The subregions of region 3 for (p, T) → v

Written from IAPWS SR5-05(2016): the boundary equations (tables 1 to 3), the pressure
bands (table 2) and the subregions near the critical point (table 10).
p in MPa, T in kelvin.
-/

namespace If97
namespace Sub3

noncomputable def T3ab (p : ℝ) : ℝ := 1547.93642129415 - 187.661219490113 * Real.log p +
  21.3144632222113 * Real.log p ^ 2 - 1918.87498864292 / Real.log p + 918.419702359447 / Real.log p ^ 2
noncomputable def T3op (p : ℝ) : ℝ := 969.461372400213 - 332.500170441278 * Real.log p +
  64.2859598466067 * Real.log p ^ 2 + 773.845935768222 / Real.log p - 1523.13732937084 / Real.log p ^ 2
noncomputable def T3wx (p : ℝ) : ℝ := 7.2805260914538 + 97.3505869861952 * Real.log p +
  14.7370491183191 * Real.log p ^ 2 + 329.196213998375 / Real.log p + 873.371668682417 / Real.log p ^ 2
noncomputable def T3ef (p : ℝ) : ℝ := 3.727888004 * (p - 22.064) + 647.096
noncomputable def T3cd (p : ℝ) : ℝ :=
  585.276966696349 + 2.78233532206915 * p - 0.0127283549295878 * p ^ 2 + 0.000159090746562729 * p ^ 3
noncomputable def T3gh (p : ℝ) : ℝ := -24928.4240900418 + 4281.43584791546 * p - 269.02917314013 * p ^ 2 +
  7.51608051114157 * p ^ 3 - 0.0787105249910383 * p ^ 4
noncomputable def T3ij (p : ℝ) : ℝ := 584.814781649163 - 0.616179320924617 * p + 0.260763050899562 * p ^ 2 -
  0.00587071076864459 * p ^ 3 + 0.0000515308185433082 * p ^ 4
noncomputable def T3jk (p : ℝ) : ℝ := 617.229772068439 - 7.70600270141675 * p + 0.697072596851896 * p ^ 2 -
  0.0157391839848015 * p ^ 3 + 0.000137897492684194 * p ^ 4
noncomputable def T3mn (p : ℝ) : ℝ :=
  535.339483742384 + 7.61978122720128 * p - 0.158365725441648 * p ^ 2 + 0.00192871054508108 * p ^ 3
noncomputable def T3qu (p : ℝ) : ℝ :=
  565.603648239126 + 5.29062258221222 * p - 0.102020639611016 * p ^ 2 + 0.00122240301070145 * p ^ 3
noncomputable def T3rx (p : ℝ) : ℝ :=
  584.561202520006 - 1.02961025163669 * p + 0.243293362700452 * p ^ 2 - 0.00294905044740799 * p ^ 3
noncomputable def T3uv (p : ℝ) : ℝ :=
  528.199646263062 + 8.90579602135307 * p - 0.222814134903755 * p ^ 2 + 0.00286791682263697 * p ^ 3

/-- the state is on the liquid side: T is at most the saturation temperature at p -/
def Liquid (p T : ℝ) : Prop := ∃ Ts, 273.15 ≤ Ts ∧ Ts ≤ 647.096 ∧ Domain.IsSat p Ts ∧ T ≤ Ts
/-- the state is on the vapour side: T is at least the saturation temperature at p -/
def Vapour (p T : ℝ) : Prop := ∃ Ts, 273.15 ≤ Ts ∧ Ts ≤ 647.096 ∧ Domain.IsSat p Ts ∧ Ts ≤ T

/-- the saturation pressure at 643.15 K is below p -/
def Above643 (p : ℝ) : Prop := ∃ ps, Domain.IsSat ps 643.15 ∧ ps < p
/-- the saturation pressure at 643.15 K is not below p -/
def Below643 (p : ℝ) : Prop := ∃ ps, Domain.IsSat ps 643.15 ∧ p ≤ ps

/-- `Published p T c`: the release assigns the state to subregion 3c. -/
inductive Published : ℝ → ℝ → Char → Prop
  -- 40 < p ≤ 100
  | b1a {p T} : 40 < p → p ≤ 100 → T ≤ T3ab p → Published p T 'a'
  | b1b {p T} : 40 < p → p ≤ 100 → T3ab p < T → Published p T 'b'
  -- 25 < p ≤ 40
  | b2c {p T} : 25 < p → p ≤ 40 → T ≤ T3cd p → Published p T 'c'
  | b2d {p T} : 25 < p → p ≤ 40 → T3cd p < T → T ≤ T3ab p → Published p T 'd'
  | b2e {p T} : 25 < p → p ≤ 40 → T3ab p < T → T ≤ T3ef p → Published p T 'e'
  | b2f {p T} : 25 < p → p ≤ 40 → T3ef p < T → Published p T 'f'
  -- 23.5 < p ≤ 25
  | b3c {p T} : 23.5 < p → p ≤ 25 → T ≤ T3cd p → Published p T 'c'
  | b3g {p T} : 23.5 < p → p ≤ 25 → T3cd p < T → T ≤ T3gh p → Published p T 'g'
  | b3h {p T} : 23.5 < p → p ≤ 25 → T3gh p < T → T ≤ T3ef p → Published p T 'h'
  | b3i {p T} : 23.5 < p → p ≤ 25 → T3ef p < T → T ≤ T3ij p → Published p T 'i'
  | b3j {p T} : 23.5 < p → p ≤ 25 → T3ij p < T → T ≤ T3jk p → Published p T 'j'
  | b3k {p T} : 23.5 < p → p ≤ 25 → T3jk p < T → Published p T 'k'
  -- 23 < p ≤ 23.5
  | b4c {p T} : 23 < p → p ≤ 23.5 → T ≤ T3cd p → Published p T 'c'
  | b4l {p T} : 23 < p → p ≤ 23.5 → T3cd p < T → T ≤ T3gh p → Published p T 'l'
  | b4h {p T} : 23 < p → p ≤ 23.5 → T3gh p < T → T ≤ T3ef p → Published p T 'h'
  | b4i {p T} : 23 < p → p ≤ 23.5 → T3ef p < T → T ≤ T3ij p → Published p T 'i'
  | b4j {p T} : 23 < p → p ≤ 23.5 → T3ij p < T → T ≤ T3jk p → Published p T 'j'
  | b4k {p T} : 23 < p → p ≤ 23.5 → T3jk p < T → Published p T 'k'
  -- 22.5 < p ≤ 23
  | b5c {p T} : 22.5 < p → p ≤ 23 → T ≤ T3cd p → Published p T 'c'
  | b5l {p T} : 22.5 < p → p ≤ 23 → T3cd p < T → T ≤ T3gh p → Published p T 'l'
  | b5m {p T} : 22.5 < p → p ≤ 23 → T3gh p < T → T ≤ T3mn p → Published p T 'm'
  | b5n {p T} : 22.5 < p → p ≤ 23 → T3mn p < T → T ≤ T3ef p → Published p T 'n'
  | b5o {p T} : 22.5 < p → p ≤ 23 → T3ef p < T → T ≤ T3op p → Published p T 'o'
  | b5p {p T} : 22.5 < p → p ≤ 23 → T3op p < T → T ≤ T3ij p → Published p T 'p'
  | b5j {p T} : 22.5 < p → p ≤ 23 → T3ij p < T → T ≤ T3jk p → Published p T 'j'
  | b5k {p T} : 22.5 < p → p ≤ 23 → T3jk p < T → Published p T 'k'
  -- p_sat(643.15 K) < p ≤ 22.5
  | b6c {p T} : Above643 p → p ≤ 22.5 → T ≤ T3cd p → Published p T 'c'
  | b6q {p T} : Above643 p → p ≤ 22.5 → T3cd p < T → T ≤ T3qu p → Published p T 'q'
  | b6r {p T} : Above643 p → p ≤ 22.5 → T3rx p < T → T ≤ T3jk p → Published p T 'r'
  | b6k {p T} : Above643 p → p ≤ 22.5 → T3jk p < T → Published p T 'k'
  -- near the critical point, 22.11 < p ≤ 22.5
  | c1u {p T} : 22.11 < p → p ≤ 22.5 → T3qu p < T → T ≤ T3uv p → Published p T 'u'
  | c1v {p T} : 22.11 < p → p ≤ 22.5 → T3uv p < T → T ≤ T3ef p → Published p T 'v'
  | c1w {p T} : 22.11 < p → p ≤ 22.5 → T3ef p < T → T ≤ T3wx p → Published p T 'w'
  | c1x {p T} : 22.11 < p → p ≤ 22.5 → T3wx p < T → T ≤ T3rx p → Published p T 'x'
  -- 22.064 < p ≤ 22.11
  | c2u {p T} : 22.064 < p → p ≤ 22.11 → T3qu p < T → T ≤ T3uv p → Published p T 'u'
  | c2y {p T} : 22.064 < p → p ≤ 22.11 → T3uv p < T → T ≤ T3ef p → Published p T 'y'
  | c2z {p T} : 22.064 < p → p ≤ 22.11 → T3ef p < T → T ≤ T3wx p → Published p T 'z'
  | c2x {p T} : 22.064 < p → p ≤ 22.11 → T3wx p < T → T ≤ T3rx p → Published p T 'x'
  -- p ≤ 22.064, liquid side
  | c3u {p T} : 21.93161551 < p → p ≤ 22.064 → Liquid p T → T3qu p < T → T ≤ T3uv p → Published p T 'u'
  | c3y {p T} : 21.93161551 < p → p ≤ 22.064 → Liquid p T → T3uv p < T → Published p T 'y'
  | c4u {p T} : Above643 p → p ≤ 21.93161551 → Liquid p T → T3qu p < T → Published p T 'u'
  -- p ≤ 22.064, vapour side
  | c5z {p T} : 21.90096265 < p → p ≤ 22.064 → Vapour p T → T ≤ T3wx p → Published p T 'z'
  | c5x {p T} : 21.90096265 < p → p ≤ 22.064 → Vapour p T → T3wx p < T → T ≤ T3rx p → Published p T 'x'
  | c6x {p T} : Above643 p → p ≤ 21.90096265 → Vapour p T → T ≤ T3rx p → Published p T 'x'
  -- 20.5 < p ≤ p_sat(643.15 K)
  | b7c {p T} : 20.5 < p → Below643 p → T ≤ T3cd p → Published p T 'c'
  | b7s {p T} : 20.5 < p → Below643 p → T3cd p < T → Liquid p T → Published p T 's'
  | b7r {p T} : 20.5 < p → Below643 p → Vapour p T → T ≤ T3jk p → Published p T 'r'
  | b7k {p T} : 20.5 < p → Below643 p → T3jk p < T → Vapour p T → Published p T 'k'
  -- 19.00881189173929 < p ≤ 20.5
  | b8c {p T} : 19.00881189173929 < p → p ≤ 20.5 → T ≤ T3cd p → Published p T 'c'
  | b8s {p T} : 19.00881189173929 < p → p ≤ 20.5 → T3cd p < T → Liquid p T → Published p T 's'
  | b8t {p T} : 19.00881189173929 < p → p ≤ 20.5 → Vapour p T → Published p T 't'
  -- below
  | b9c {p T} : 16.529 < p → p ≤ 19.00881189173929 → Liquid p T → Published p T 'c'
  | b9t {p T} : 16.529 < p → p ≤ 19.00881189173929 → Vapour p T → Published p T 't'

end Sub3
end If97
