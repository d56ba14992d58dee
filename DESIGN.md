# Formal model of RustSEUIF97 in Lean 4

## 1. Approach

The Rust crate computes IAPWS-IF97 steam properties with `f64`.  The model is
written once, function by function, over an abstract number type `F` equipped
with the operations the code uses (`+ - * /`, unary minus, decimal literals,
`<`, `<=`, `==`, `abs`, `powi`, `powf`, `exp`, `ln`, `sqrt`, `i32 as f64`).
No laws are assumed of these operations (`Model/Num.lean`, class `Flt`).  So

* **tier 1, "any number type"**: theorems stated for every `F` (dispatch, guards,
  error codes, bitwise identities, loop structure) hold for IEEE f64 including
  NaN, infinities and rounding, whatever the libm;
* **tier 2, "exact arithmetic"**: theorems at `F = ℝ` (`Inst/Real.lean`) say what
  the code's formulas, tables, branches and loops compute without rounding;
* **tier 3, "certified enclosure"**: sign facts about the published polynomials on
  whole regions (C41, C42, C47 and later) follow from a verified enclosure
  arithmetic over integers; the region is covered by boxes, the checker is a
  total Lean function with a soundness theorem over ℝ, and its run on the boxes
  is evaluated by the kernel (`decide +kernel`).  The boxes cover the region
  completely (this is a theorem too), so nothing is sampled.
  Quantitative bounds (C50 and later) use verified Taylor models instead:
  polynomials in two variables, packed into natural numbers, with an error bound
  (`Lemmas/Pack`, `Taylor`, `TaylorTree`, and `Lemmas/Tm/` for the tables,
  subdivisions and coverings; what the kernel evaluates is in `Lemmas/Tm/Comp/`,
  free of Mathlib).  The subdivision trees are found by `tools/taylor`, which is
  not trusted.

The instance at Lean's `Float` (`Model/FloatInst.lean`) makes the model
executable; it is used only to compare the model with the reference values in
/repo/tests (`tools/validate.txt`), and no theorem depends on it.

A call of the API has type `Option F`; `none` means the call does not return.
Unbounded `while` loops are `partial_fixpoint` definitions, counted loops are
structural recursion.

## 2. Trusted base

* Lean 4.33's kernel, and the definitions of Mathlib used in the statements
  (`ℝ`, `HasDerivAt`, `StrictMonoOn`, `Real.sqrt`, `Real.exp`, `Real.log`, …).
* Axioms: every property theorem depends on a subset of `propext`,
  `Classical.choice`, `Quot.sound` (checked by `#print axioms` on all of them;
  tier 1 theorems mostly need only `propext` and `Quot.sound`).  No axiom of our own, no
  `sorry`, no `native_decide`, no `bv_decide`, no `implemented_by`.
* Tier 3 uses kernel evaluation of integer arithmetic (GMP acceleration of
  `Nat`/`Int` literals in the kernel is part of the kernel).  The elaborator
  `eval%` that prints precomputed search results is not trusted: its output is
  rechecked.
* The fidelity of the hand-translated model to the Rust text.  Long coefficient
  tables were translated by `tools/rs2lean.py`; each definition cites the file
  and lines it models; the executable model reproduces the verification
  tables quoted in /repo/tests to the printed digits.
* Rust-level facts: `f64` semantics of the primitive operations (for tier 1: none
  but that they are functions; for NaN theorems the IEEE comparison laws are
  hypotheses), i32 arithmetic does not overflow for the table exponents, arrays
  are indexed in bounds (proved for the step lists in C09).

## 3. What is modelled, and what is not

Modelled (every function of these files that is reachable from the API):

| /repo/src | Lean |
|---|---|
| algo/polynomial.rs, polynomial_steps.rs, root.rs | Model/Poly, Model/Root |
| common/constant.rs, propertry_id.rs | Model/Const |
| common/boundaries.rs | Model/Bound |
| common/region.rs | Model/Region, Model/RegionTh |
| common/propertry_pairs.rs | Model/PairProps, Model/Pairs |
| common/transport_further.rs | Model/Transport |
| r1/*.rs, r2/*.rs, r5/*.rs | Model/R1, R2, R5, Reg1, Reg2, Reg5, RegPair1/2/5, PairLoops, Reg25Loops |
| r3/*.rs | Model/R3, R3v, R3vSub, Reg3 |
| r4/*.rs | Model/Sat, Reg4, Reg4Loops |
| rust_if97.rs, cdecl_c_if97.rs, stdcall_c_if97.rs, python_if97.rs | Model/Api |

Not modelled: calling conventions and symbol export of the C libraries, PyO3
argument conversion, the `demo_using_lib`, `benches`, `examples` directories, and
rounding error bounds (tiers 2 and 3 speak about exact arithmetic).  The
generic Rust trait `o_id_region_args` is modelled by the sum type
`OIdRegionArgs` of its two implementations (an id, or an id with a region).

Simplifications are noted in the comment of the definition concerned.  The ones that
matter: a Rust `while` with several mutable locals becomes a recursive function
on those locals; early `return` becomes the first alternative of a chain; the
`match` on `o_id` becomes a chain of equality tests in the same order.

## 4. Layout

* `Model/` the code, `Spec/` the independent vocabulary of the statements
  (`Spec/Doc` the documented ids and units, `Spec/PairFn` the twelve entry
  points as a type, `Spec/Thermo` the definitions of the thermodynamic
  quantities, `Spec/Domain` the IF97 region map, `Spec/Sub3` the published
  region 3 subregion table),
* `Lemmas/` proofs about the model, `Props/Cnn.lean` the property theorems with
  an `example` beside each showing that its hypotheses are met,
* `seeded/LOG.jsonl` the wrong programs tried against the theorems.

## 5. Disagreements between the code and its documentation

Each was found by attempting the proof; the ones marked with a theorem are
proved with a concrete witness (or for a whole set of inputs).

1. Prandtl number through `pt` in regions 1, 2, 5 is evaluated at density 1/T (C24_prandtl_violated).
2. Kinematic viscosity in region 3 multiplies by the density (C23_region3_violated).
3. `tv`, `th`, `ts` reject 863.15 K < T ≤ 1073.15 K (C37_violated).
4. Region 3 subregions 3c and 3k are overwritten between psat(643.15 K) and 22.5 MPa; `pt(22.356, 362.55, OV)` is negative (C36_wrong_c, C36_wrong_k, C36_negative_volume).
5. `pt` on the saturation line returns 4.0 whatever property is asked (C38_violated).
6. Two-phase density above 623.15 K is the error code -1000 (C31_density_violated).
7. Two-phase density is interpolated linearly, so it is not 1/v (C30_violated).
8. Region 5 isochoric heat capacity is not cp − T v β²/κ (C18_region5_violated), and the speed of sound is inconsistent with it (C19_region5_violated).
9. Region 3 specific exergy uses another formula than the other regions (C20_region3_violated).
10. `OIJTC` is a factor 1000 off its documented unit (C21_ijtc_violated).
11. `OFI` uses exp(g/RT) in regions 1 and 3 but exp((g−g0)/RT) in regions 2 and 5.
12. p equal to the documented minimum pressure is rejected for 0.001..350 °C (C05_gap, C40_violated).
13. Subregion 3l drops its last coefficient (C09_3l_missing_term, C09_3l_wrong_volume).
14. `tx` answers OT and OX for temperatures outside its range, `px` does not (C39_tx_violated).
15. A region argument outside 1..5, 10 is returned as the result (C02_region_other).
16. p_sat at the critical temperature is above the accepted maximum (C25_top_mismatch), and the lower ends mismatch too (C25_bottom_mismatch).
17. `pv` rejects water near its density maximum (C47_pv_violated); `ts` classifies compressed water below 4 °C as two-phase (C47_ts_violated).
18. `tv`/`ts` at exactly 100 MPa in region 1 give −9999 (strict test).
19. `pv` in region 1: a failed iteration returns −9999, used as a kelvin temperature; pv2T_reg1 can return up to 623.16 K (hence the bounds of C33).
20. pv2T_reg2's search-interval loop leaves after one pass.
21. th_sub_region: for T in [523.15, 623.15] K the upper pressure stays 0; the minimum search starts at 0.1 MPa; for T < 523.15 K a mixture of small quality is taken for region 1 (C48_th_violated).
22. hs2T_reg4: outside the two entropy ranges both bounds are 0 and the returned p is 0; INVALID_H from h2p_sat_reg3 is used as a pressure.
23. H_MIN4/S_MIN4/S_MAX4 reject valid saturated states in `hx`/`sx`.
24. Between Ps_623 and psat(623.15 K) `px` mixes regions 1, 2 while the saturated values come from region 3.
25. pv_sub_region for p ≤ 0.000611213: both saturated volumes stay 0; P_MIN3 and Ps_623 differ in the last digits.
26. `tv` in regions 1, 5 returns OD = 1/v(input) while the other outputs use the iterated state.
27. C `pt` in the cdecl library is declared `extern "stdcall"`.
28. NaN passes the guards of `px`, `hx`, `sx`.
29. `hs` never returns for h = 1680 kJ/kg and 3.792947 <= s <= 3.792949 kJ/(kg K) (wet steam at 16.53 MPa): the uncounted pressure loop of `hs2T_reg4` (`src/r4/region4_T_hs.rs:120-145`) jumps back and forth across the pressure where it changes from regions 1/2 to region 3 (`C35_hs_violated`; exact arithmetic; the model run in double precision is still in the loop after 20000 passes).
30. Steam just above 800 °C is put in region 2 by `ph`, `ps` and `pv` although `pt` says region 5 (`src/common/region.rs`: the limit is the region 2 value at 800 °C, and the two equations differ there): 800.01 °C at 10 MPa for (p,h), (p,s) and at 45 MPa for (p,v) (`C47_ph_5_violated`, `C47_ps_5_violated`, `C47_pv_5_violated`); the right region from 800.1 °C (`ph`, `ps`) and 800.15 °C (`pv`).
31. A state of region 3 within a few mK of B23 is put in region 2 by `ph` (`src/common/region.rs`: the limit is the region 2 enthalpy on B23, and the two equations differ there by up to 18 mK): 554.13 °C at 80.063 MPa, 7 mK below B23 (`C56_border_ph`); the right region from 50 mK on (C56).

## 6. Per property: model and proof

* **C01 Input echo** (proved). Method: generic in the number type (covers IEEE f64); case analysis on the dispatcher. Any number type, all twelve functions; px/hx/sx echo inside their accepted range.
* **C02 Explicit region bypasses detection** (proved). Method: generic; case analysis on `pair_properties` with an independent table of region functions. Any number type; includes the exact behaviour for region arguments outside 1..5 and 10.
* **C03 C, stdcall, Python and Rust bindings agree** (proved). Method: generic; each binding body modelled separately and proved equal to the Rust entry point. Any number type; the entry-point bodies are modelled separately. Calling conventions are outside the model.
* **C04 Unknown property ids are rejected** (proved). Method: generic; exhaustive case analysis on the `match o_id` chains. Any number type; exhaustive over the dispatch chains.
* **C05 (p,t) region map is the IF97 domain** (partial). Method: over the reals; independent domain predicate, proved iff. Exact arithmetic, both directions, with the disjointness and totality of the map. The one departure of the code, p equal to the minimum pressure below saturation, is proved in C05_gap.
* **C06 Region results are a closed set** (proved). Method: generic; path analysis of the guards. Any number type; path analysis of the eight detectors.
* **C07 Invalid states propagate their error code** (proved). Method: generic; path analysis of `pair_properties`. Any number type.
* **C08 NaN inputs are never assigned a region by pt** (proved). Method: for any number type satisfying stated NaN laws (an instance is exhibited). Any number type satisfying the IEEE laws of NaN; all eight detectors; Option R instance shows the laws are satisfiable.
* **C09 Multi-step summation covers every coefficient exactly once** (partial). Method: generic: loop-invariant proof that consecutive steps cover the table, plus checked-index version. Proved for all 39 (table, steps) pairs except subregion 3l, whose step list drops the last coefficient: C09_3l_wrong_volume proves the violation.
* **C10 Recursive multi-derivative evaluation equals separate evaluation** (proved). Method: over the reals, by induction on the table. Exact arithmetic, any table, any step list; bases non-zero, which C12_range shows for the whole IF97 range of regions 1, 2, 5.
* **C11 Derivative polynomials are the derivatives** (proved). Method: over the reals, `HasDerivAt` by induction on the table. Exact arithmetic, any coefficient table.
* **C12 Volume and entropy are derivatives of the Gibbs energy** (proved). Method: over the reals, `HasDerivAt` from C11 + chain rule. Exact arithmetic, at the API.
* **C13 Region 3 pressure and entropy are derivatives of the Helmholtz energy** (proved). Method: as C12 for region 3. Exact arithmetic, at the API (tv in region 3).
* **C14 Energy bookkeeping** (proved). Method: over the reals, algebra. Exact arithmetic, at the API.
* **C15 Heat capacities are derivatives** (proved). Method: `HasDerivAt`. Exact arithmetic, at the API; also region 3 OCP.
* **C16 Volume derivatives, expansion and compressibility** (proved). Method: `HasDerivAt`. Exact arithmetic, at the API.
* **C17 Maxwell relation** (proved). Method: `HasDerivAt`. Exact arithmetic, at the API; also the Helmholtz form in region 3.
* **C18 cp - cv relation** (partial). Method: algebra; region 5 violates it - negation with witness. Proved in regions 1, 2, 3. The code violates it in region 5: C18_region5_actual gives what is computed, C18_region5_violated a counterexample.
* **C19 Speed of sound relation** (partial). Method: algebra with Real.sqrt. Proved in regions 1, 2, 3. In region 5 it holds with the true cv (C19_gibbs) but not with the returned OCV: C19_region5_violated.
* **C20 Exergy definition is the same in all regions** (partial). Method: algebra; region 3 violates it - negation. Proved in regions 1, 2, 5. The code violates it in region 3: C20_region3_iff says exactly where, C20_region3_violated is a counterexample.
* **C21 Throttling coefficients** (partial). Method: algebra + derivative; unit factor 0.001 deviates - exact statement. OJTC proved in all single-phase regions. OIJTC is 0.001 times the documented quantity: C21_ijtc_*; C21_ijtc_violated is a counterexample.
* **C22 Definitional ratios** (proved). Method: generic (bitwise) or reals. Any number type for the code's own order of operations; textbook forms over the reals.
* **C23 Kinematic viscosity is dynamic viscosity over density** (partial). Method: generic; region 3 violates it - negation. Exact for pt in every region and tv in region 3 in the code's own arithmetic. OKV = ODV/OD in regions 1, 2, 5; in region 3 the code multiplies: C23_region3_actual, C23_region3_violated.
* **C24 Prandtl number and thermal diffusivity** (partial). Method: generic; pt path violates it - negation. Diffusivity proved in all regions, Prandtl number in region 3. In regions 1, 2, 5 the code evaluates the Prandtl number at density 1/T: C24_prandtl_actual, C24_prandtl_iff, C24_prandtl_violated.
* **C25 Saturation temperature inverts saturation pressure** (proved). Method: over the reals: quadratic implicit equation solved both ways. Exact arithmetic, wherever both calls accept. At the two ends of the range the pair of guards disagrees by rounding of constants: C25_top_mismatch, C25_bottom_mismatch.
* **C26 Saturation curve is strictly increasing and positive** (proved). Method: from C25 by continuity and injectivity. Exact arithmetic, through px and tx.
* **C27 B23 boundary is strictly increasing and its two forms agree** (proved). Method: reals, algebra and bounds. Exact arithmetic; round trips within 1e-9 K and 1e-10 MPa.
* **C28 Two-phase mixing is linear in quality** (partial). Method: reals (and generic where bitwise). Proved for px and tx on the whole accepted range except the two narrow gaps named in the theorem comment (between the rounded 623.15 K pressure constants, and the last 1e-6 before the critical point) and except density above 350 C, where the code answers an error.
* **C29 Quality round trip** (partial). Method: reals, lever rule. Exact arithmetic: returned quality equals the given one with region 4 given (whole range below 350 C), and without a region up to 16.529 MPa. Above 350 C under the hypothesis that the two saturated values differ.
* **C30 Two-phase density is consistent with two-phase volume** (partial). Method: violated: negation and exact value. The ends x=0, x=1 are proved. The code interpolates OD linearly, so OD*OV=1 fails for every 0<x<1: C30_actual, C30_violated, C30_high_violated.
* **C31 Two-phase properties are available for the whole saturation range** (partial). Method: violated for OD above 350 C: exact value; positive part for the others. Saturated end points proved equal to the single-phase values on the same range as C28; C31_density_violated: density above 623.15 K is the error code -1000.
* **C32 Root finders stop** (proved). Method: generic: fuel recursion equals the loop; invariants. Any number type; any function.
* **C33 Iterative inversions stay inside the region limits** (partial). Method: reals: clamp lemmas. Every state an iterative inversion returns reproduces the given property or lies within the published limits, except: pv in region 2 may be 0.001 K outside; pv in region 1 may reach 350.01 degC or, on failure, uses -9999 as a kelvin temperature; tv in region 1 is only shown positive; early exits reproduce the property to 1e-8 but are not clamped
* **C34 hx and sx stay on the saturation curve** (proved). Method: reals: loop invariant by induction. Exact arithmetic: the result of hx and sx is a bracketed zero of the quality residual to the bisection tolerance.
* **C35 Every call returns** (partial). Method: `partial_fixpoint` model (none = divergence); termination measures over the reals. `C35_hs_violated`: an invariant interval of pressures for the uncounted loop, with the entropy of one pass enclosed along the saturation line by Taylor models checked in the kernel (Lemmas/Tm/Hang*.lean). pt, ph, ps, pv, ts, px, tx, hx, sx for any arithmetic; tv and th in exact arithmetic; hs unless region 4 is used with an entropy outside (5.210887825, 9.155759395). The claim is false of the code for hs: C35_hs_violated proves that hs(1680, s) never returns for every s from 3.792947 to 3.792949 (the second, uncounted loop of the region 4 inversion).
* **C36 Region 3 subregion selection is total and follows the published table** (partial). Method: generic totality; negation for the overwritten letters. Total for any arithmetic; the published subregion for 16.529 < p <= 100 MPa and all T except the set Wrong; on Wrong the code departs from the release (3c and 3k are overwritten between psat(643.15 K) and 22.5 MPa), shown for all such states, and pt(22.356, 362.55, OV) is negative
* **C37 tv/th/ts cover the documented temperature range** (partial). Method: violated: generic proof that the band yields -9999. Violated: C37_violated shows tv, th, ts reject every temperature from above 590 C to 800 C, a part of region 2. C37_pt_assigns is the part that holds.
* **C38 pt on the saturation line** (partial). Method: violated: generic proof that 4.0 is returned. Violated: C38_violated; C38_actual states what the code does instead.
* **C39 Range guards of px and tx behave alike** (partial). Method: px/hx/sx proved, tx violated for OT/OX. Guards proved; C39_tx_violated gives the asymmetry between px and tx.
* **C40 Domain boundaries are inclusive** (partial). Method: reals; violated at p = P_MIN. All other limits are inclusive; the minimum pressure is rejected for 0.001..350 C: C40_violated.
* **C41 Liquid and vapour are ordered** (proved). Method: reals; certified interval arithmetic evaluated in the kernel. Exact arithmetic: strict order of the saturated phases up to 623.15 K through tx, px; the sign facts come from certified interval subdivision.
* **C42 Stability of the returned states** (partial). Method: reals; certified interval arithmetic. Exact arithmetic, regions 1, 2, 5: v > 0, cp > 0, kT > 0; monotone isobars and isotherms; unique inversion; positive expansion of steam and of water from 5 C. cv > 0 and real speed of sound are proved as C52. Region 3 by (t,v), outside a window around the critical point, is C55; missing: region 3 by (p,t), where the code does return negative volumes (C36).
* **C43 Surface tension** (proved). Method: reals; monotonicity of rpow. 
* **C44 Viscosity and conductivity are positive** (proved). Method: reals; sign of exp and of a bounded polynomial. Exact arithmetic, all T >= 273.15 K and all densities, through pt and tv.
* **C45 Documented units of temperature** (proved). Method: generic; path analysis. 
* **C46 All outputs of a call describe one state** (proved). Method: any number type; case analysis per region function. Any number type; all eight pair functions, regions 1, 2, 3, 5, all inputs.
* **C47 The input pairs agree on the region** (partial). Method: exact arithmetic; monotonicity along isobars and isotherms from certified enclosures, then path analysis of each detector. Exact arithmetic. Proved for (p,h), (p,s) in regions 1, 2 and in 5 from 800.1 C (region 3: C56); (p,v) in 2 and in 5 from 800.15 C (outside 16.529 to 22.064 MPa); (t,v) in 1, 2, 5; (t,s) in 1 from 5 C, 2, 5; (t,h) in 1 up to 200 C, 2, 5. The code departs for (p,v) and (t,s) of cold water (C47_pv_violated, C47_ts_violated), within 0.15 K above 800 C, where the equations of regions 2 and 5 do not meet (C47_ph_5_violated, C47_ps_5_violated, C47_pv_5_violated), at p = 100 MPa for tv/ts, above 590 C for tv/th/ts (C37) and between the two B23 forms.
* **C48 Quality round trip by temperature** (partial). Method: exact arithmetic; order of the saturated phases (C41) and path analysis of the detectors; point values by certified enclosure for the counterexample. Exact arithmetic. Proved for tv and ts with and without a region and for th with region 4 given. th without a region takes mixtures of small quality below 250 C for water (C48_th_actual, C48_th_violated); it is right otherwise (C48_th_partial).
* **C49 Throttling** (proved). Method: exact arithmetic; sign of the mixed derivative by certified enclosure, then monotonicity of enthalpy in pressure. Exact arithmetic, all states of regions 2 and 5, region 1 up to 200 C.
* **C50 Liquid water: ph, ps and hs invert pt** (proved). Method: exact arithmetic; T(p, h(p, T)) - T and its analogues are enclosed on subdivisions of the region by verified Taylor models (polynomial arithmetic on packed naturals, evaluated in the kernel), and the subdivisions are proved to cover the region. Exact arithmetic, all states of region 1; hs with the region given.
* **C51 Steam: ph inverts pt** (proved). Method: exact arithmetic; T(p, h(p, T)) - T is enclosed by verified Taylor models on subdivisions in the coordinates β = p^(1/4) and the position of 540/T between polynomials that follow the isotherm 1073.15 K, the h2bc curve and the boundary of the region; the polynomials are proved to lie outside the region, so the subdivisions cover it. Exact arithmetic, all states of region 2; region detected outside the strip between the two B23 forms.
* **C52 Heat capacities ordered, speed of sound real** (proved). Method: exact arithmetic; the determinant of the second derivatives of the dimensionless Gibbs function is shown positive by verified Taylor models on the strips of C50 (region 1), the fans of C51 (region 2) and one box (region 5); the claims about OCV, OCP and OW follow by algebra and C42. Regions 1, 2, 5, every state of the region, region given or detected. OCV of region 5 is the returned value, which is not the release's cv (C18).
* **C53 Steam: T(p,s) inverts the basic equation** (proved). Method: exact arithmetic; the region is subdivided in coordinates that follow its boundary and the isentrope 5.85, and T(p, s(p, T)) - T is enclosed by verified Taylor models evaluated in the kernel, with a verified model of the logarithm; p and τ - 0.5 are measured in units chosen per fan, and the tables in these units are checked against those of the code. Exact arithmetic, all states of region 2; region detected outside the strip between the two B23 forms.
* **C54 Region 3: T(p,h), v(p,h), T(p,s), v(p,s) invert the basic equation** (proved). Method: exact arithmetic; in the coordinates density/322 and 647.096/T the region is subdivided (about 4000 boxes); on each box verified Taylor models enclose p, h (or s, with its logarithm), the backward temperature and volume of the subregion that holds the box, or of both subregions when the box meets their boundary, or show that the box lies outside the region. Constants and tables in the kernel-evaluated code are proved equal to those of the model. Below the critical point the boxes left out are those above 22.064 MPa (covered already), on the wrong side of a parabola inside the two-phase dome, or beyond the saturation line; the saturation pressure is bounded there by fourth powers of two quadratics (Bernstein coefficients, `Lemmas/SatBound.lean`). The region is given by the caller. exact arithmetic; the region is given by the caller
* **C55 Region 3: the states are stable** (proved). Method: exact arithmetic; the three sign conditions 2 phi_d + d phi_dd > 0, phi_tt < 0 and phi_d - tau phi_dt > 0 are each one polynomial in density/322 and 647.096/T, and verified Taylor models decide them on a subdivision (about 160 boxes); the derivatives that link them to the returned values are those of C13-C22. `C55_critical` shows that the window cannot be dropped. Region 3 stability by (t,v): kappa_T, c_v, c_p, w, (dp/dT)_v positive; isotherms and isochores monotone above 373.95 degC. A window around the critical point is excluded in the statement, with a counterexample inside it.
* **C56 Region 3: the states are recognised by (p,h) and (p,s) without naming the region** (proved). Method: exact arithmetic; in six pressure bands the enthalpies and entropies on the two borders are bounded by fitted polynomials in p (one-dimensional Taylor models), and the region 3 states are shown to lie strictly between them and above p34(h), p34(s) (two-dimensional Taylor models, 0.05 K and 0.1 K from the borders by the hypotheses); the inversion itself is C54. `C56_border_ph` shows that the distance from B23 cannot be dropped. exact arithmetic; states at least 0.05 K from 350 degC and B23 and 0.1 K from saturation; within a few mK of B23 the code departs (C56_border_ph)
* **C57 Region 3: isobars are monotone, so (p,h) and (p,s) determine the state** (proved). Method: exact arithmetic; from the signs of C55 the pressure is monotone on isotherms and isochores, which orders the volumes and entropies; the Gibbs function is then shown to be concave along the isobar (its supporting line follows from the convexity of the Helmholtz function in v and its concavity in T), which orders the enthalpies. No further subdivision is needed. exact arithmetic; above 373.95 degC
* **C58 Isentropic compression raises the enthalpy; (h,s) determines the state** (proved). Method: exact arithmetic; h = g + T s with g concave in T and increasing in p (C12, and the signs of C42, C55), so h(p',T') is the largest value of g(p',T) + T s' along the isobar; the mean value theorem gives the two bounds by v dp. Region 3 works with the Helmholtz function; that the densities up to 800 kg/m3 reach 100 MPa is evaluated at 647.1 K and carried upwards by monotonicity. Not covered: region 2 when the compressed state at the lower temperature is not steam, and states of two different regions. Exact arithmetic, every pair of states of one region (1, 2, 5, and 3 above 373.95 degC).
* **C59 Heat along isobars and work along isotherms obey the second law** (proved). Method: exact arithmetic; the mean value theorem on g along the isobar (slope -s) and isotherm (slope 1000 v), and on f along the isochore (slope -s) and isotherm (slope -1000 p) of region 3, with the strict monotonicity of s, v and p from C42, C55 and C57. Not covered: paths that cross a region boundary, and region 3 below 373.95 degC. Exact arithmetic, every pair of states of one region (1, 2, 5, and 3 above 373.95 degC) on a common isobar, isotherm or isochore.
* **C60 Isobars are monotone through boiling** (proved). Method: exact arithmetic; detection by C05, the mixing rule by C28, strict monotonicity inside each phase from the signs of C42, and the separating constants of C41 across the jump; the strict side of the saturation line comes from the region map. Not covered: isobars that pass through region 3. Exact arithmetic, isobars from 0 to 350 degC saturation, no region named.
* **C61 Isotherms are monotone through evaporation** (proved). Method: exact arithmetic; detection by C05, the mixing rule by C28, strict monotonicity of volume and entropy in pressure inside each phase from the signs of C42 and C49, and the separating constants of C41 across the jump. The entropy claim starts at 5 degC because the entropy of colder water is not monotone in pressure. Not covered: isotherms that pass through region 3, and p = 0.000611212677444 MPa exactly (see C05). Exact arithmetic, isotherms from 0 to 350 degC, no region named.
* **C62 The returned exergy obeys the second law** (proved). Method: exact arithmetic; OE = OH - 273.16 OS (C20) combined with the finite-difference bounds of C58 and C59. Not covered: region 3, whose exergy formula departs (C20_region3_violated), and pairs in different regions. Exact arithmetic, every pair of states of one of the regions 1, 2, 5.
