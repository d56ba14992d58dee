# Formal model of RustSEUIF97 in Lean 4

## 1. Approach

The Rust crate computes IAPWS-IF97 steam properties with `f64`.  The model is
written once, function by function, over an abstract number type `F` equipped
with the operations the code uses (`+ - * /`, unary minus, decimal literals,
`<`, `<=`, `==`, `abs`, `powi`, `powf`, `exp`, `ln`, `sqrt`, `i32 as f64`).
No laws are assumed of these operations (`Model/Num.lean`, class `Flt`).  So

* **tier 1, "any number type"**: theorems stated for every `F` (dispatch, guards,
  error codes, bitwise identities, loop structure) hold for IEEE f64 including
  NaN, infinities and rounding, whatever the libm;
* **tier 2, "exact arithmetic"**: theorems at `F = ℝ` (`Inst/Real.lean`) say what
  the code's formulas, tables, branches and loops compute without rounding;
* **tier 3, "certified enclosure"**: sign facts about the published polynomials on
  whole regions (C41, C42, C47 and later) follow from a verified enclosure
  arithmetic over integers; the region is covered by boxes, the checker is a
  total Lean function with a soundness theorem over ℝ, and its run on the boxes
  is evaluated by the kernel (`decide +kernel`).  The boxes cover the region
  completely (this is a theorem too), so nothing is sampled.
  Quantitative bounds (C50 and later) use verified Taylor models instead:
  polynomials in two variables, packed into natural numbers, with an error bound
  (`Lemmas/Pack`, `Taylor`, `TaylorTree`, and `Lemmas/Tm/` for the tables,
  subdivisions and coverings; what the kernel evaluates is in `Lemmas/Tm/Comp/`,
  free of Mathlib).  The subdivision trees are found by `tools/taylor`, which is
  not trusted.

The instance at Lean's `Float` (`Model/FloatInst.lean`) makes the model
executable; it is used only to compare the model with the reference values in
/repo/tests (`tools/validate.txt`), and no theorem depends on it.

A call of the API has type `Option F`; `none` means the call does not return.
Unbounded `while` loops are `partial_fixpoint` definitions, counted loops are
structural recursion.

## 2. Trusted base

* Lean 4.33's kernel, and the definitions of Mathlib used in the statements
  (`ℝ`, `HasDerivAt`, `StrictMonoOn`, `Real.sqrt`, `Real.exp`, `Real.log`, …).
* Axioms: every property theorem depends on a subset of `propext`,
  `Classical.choice`, `Quot.sound` (checked by `#print axioms` on all of them;
  tier 1 theorems mostly need only `propext` and `Quot.sound`).  No axiom of our own, no
  `sorry`, no `native_decide`, no `bv_decide`, no `implemented_by`.
* Tier 3 uses kernel evaluation of integer arithmetic (GMP acceleration of
  `Nat`/`Int` literals in the kernel is part of the kernel).  The elaborator
  `eval%` that prints precomputed search results is not trusted: its output is
  rechecked.
* The fidelity of the hand-translated model to the Rust text.  Long coefficient
  tables were translated by `tools/rs2lean.py`; each definition cites the file
  and lines it models; the executable model reproduces the verification
  tables quoted in /repo/tests to the printed digits.
* Rust-level facts: `f64` semantics of the primitive operations (for tier 1: none
  but that they are functions; for NaN theorems the IEEE comparison laws are
  hypotheses), i32 arithmetic does not overflow for the table exponents, arrays
  are indexed in bounds (proved for the step lists in C09).

## 3. What is modelled, and what is not

Modelled (every function of these files that is reachable from the API):

| /repo/src | Lean |
|---|---|
| algo/polynomial.rs, polynomial_steps.rs, root.rs | Model/Poly, Model/Root |
| common/constant.rs, propertry_id.rs | Model/Const |
| common/boundaries.rs | Model/Bound |
| common/region.rs | Model/Region, Model/RegionTh |
| common/propertry_pairs.rs | Model/PairProps, Model/Pairs |
| common/transport_further.rs | Model/Transport |
| r1/*.rs, r2/*.rs, r5/*.rs | Model/R1, R2, R5, Reg1, Reg2, Reg5, RegPair1/2/5, PairLoops, Reg25Loops |
| r3/*.rs | Model/R3, R3v, R3vSub, Reg3 |
| r4/*.rs | Model/Sat, Reg4, Reg4Loops |
| rust_if97.rs, cdecl_c_if97.rs, stdcall_c_if97.rs, python_if97.rs | Model/Api |

Not modelled: calling conventions and symbol export of the C libraries, PyO3
argument conversion, the `demo_using_lib`, `benches`, `examples` directories, and
rounding error bounds (tiers 2 and 3 speak about exact arithmetic).  The
generic Rust trait `o_id_region_args` is modelled by the sum type
`OIdRegionArgs` of its two implementations (an id, or an id with a region).

Simplifications are noted in the comment of the definition concerned.  The ones that
matter: a Rust `while` with several mutable locals becomes a recursive function
on those locals; early `return` becomes the first alternative of a chain; the
`match` on `o_id` becomes a chain of equality tests in the same order.

## 4. Layout

* `Model/` the code, `Spec/` the independent vocabulary of the statements
  (`Spec/Doc` the documented ids and units, `Spec/PairFn` the twelve entry
  points as a type, `Spec/Thermo` the definitions of the thermodynamic
  quantities, `Spec/Domain` the IF97 region map, `Spec/Sub3` the published
  region 3 subregion table),
* `Lemmas/` proofs about the model, `Props/Cnn.lean` the property theorems with
  an `example` beside each showing that its hypotheses are met,
* `seeded/LOG.jsonl` the wrong programs tried against the theorems.

## 5. Disagreements between the code and its documentation

Each was found by attempting the proof; the ones marked with a theorem are
proved with a concrete witness (or for a whole set of inputs).

1. Prandtl number through `pt` in regions 1, 2, 5 is evaluated at density 1/T (C24_prandtl_violated).
2. Kinematic viscosity in region 3 multiplies by the density (C23_region3_violated).
3. `tv`, `th`, `ts` reject 863.15 K < T ≤ 1073.15 K (C37_violated).
4. Region 3 subregions 3c and 3k are overwritten between psat(643.15 K) and 22.5 MPa; `pt(22.356, 362.55, OV)` is negative (C36_wrong_c, C36_wrong_k, C36_negative_volume).
5. `pt` on the saturation line returns 4.0 whatever property is asked (C38_violated).
6. Two-phase density above 623.15 K is the error code -1000 (C31_density_violated).
7. Two-phase density is interpolated linearly, so it is not 1/v (C30_violated).
8. Region 5 isochoric heat capacity is not cp − T v β²/κ (C18_region5_violated), and the speed of sound is inconsistent with it (C19_region5_violated).
9. Region 3 specific exergy uses another formula than the other regions (C20_region3_violated).
10. `OIJTC` is a factor 1000 off its documented unit (C21_ijtc_violated).
11. `OFI` uses exp(g/RT) in regions 1 and 3 but exp((g−g0)/RT) in regions 2 and 5.
12. p equal to the documented minimum pressure is rejected for 0.001..350 °C (C05_gap, C40_violated).
13. Subregion 3l drops its last coefficient (C09_3l_missing_term, C09_3l_wrong_volume).
14. `tx` answers OT and OX for temperatures outside its range, `px` does not (C39_tx_violated).
15. A region argument outside 1..5, 10 is returned as the result (C02_region_other).
16. p_sat at the critical temperature is above the accepted maximum (C25_top_mismatch), and the lower ends mismatch too (C25_bottom_mismatch).
17. `pv` rejects water near its density maximum (C47_pv_violated); `ts` classifies compressed water below 4 °C as two-phase (C47_ts_violated).
18. `tv`/`ts` at exactly 100 MPa in region 1 give −9999 (strict test).
19. `pv` in region 1: a failed iteration returns −9999, used as a kelvin temperature; pv2T_reg1 can return up to 623.16 K (hence the bounds of C33).
20. pv2T_reg2's search-interval loop leaves after one pass.
21. th_sub_region: for T in [523.15, 623.15] K the upper pressure stays 0; the minimum search starts at 0.1 MPa; for T < 523.15 K a mixture of small quality is taken for region 1 (C48_th_violated).
22. hs2T_reg4: outside the two entropy ranges both bounds are 0 and the returned p is 0; INVALID_H from h2p_sat_reg3 is used as a pressure.
23. H_MIN4/S_MIN4/S_MAX4 reject valid saturated states in `hx`/`sx`.
24. Between Ps_623 and psat(623.15 K) `px` mixes regions 1, 2 while the saturated values come from region 3.
25. pv_sub_region for p ≤ 0.000611213: both saturated volumes stay 0; P_MIN3 and Ps_623 differ in the last digits.
26. `tv` in regions 1, 5 returns OD = 1/v(input) while the other outputs use the iterated state.
27. C `pt` in the cdecl library is declared `extern "stdcall"`.
28. NaN passes the guards of `px`, `hx`, `sx`.
29. `hs` never returns for h = 1680 kJ/kg and 3.792947 <= s <= 3.792949 kJ/(kg K) (wet steam at 16.53 MPa): the uncounted pressure loop of `hs2T_reg4` (`src/r4/region4_T_hs.rs:120-145`) jumps back and forth across the pressure where it changes from regions 1/2 to region 3 (`C35_hs_violated`; exact arithmetic; the model run in double precision is still in the loop after 20000 passes).
30. Steam just above 800 °C is put in region 2 by `ph`, `ps` and `pv` although `pt` says region 5 (`src/common/region.rs`: the limit is the region 2 value at 800 °C, and the two equations differ there): 800.01 °C at 10 MPa for (p,h), (p,s) and at 45 MPa for (p,v) (`C47_ph_5_violated`, `C47_ps_5_violated`, `C47_pv_5_violated`); the right region from 800.1 °C (`ph`, `ps`) and 800.15 °C (`pv`).
31. A state of region 3 within a few mK of B23 is put in region 2 by `ph` (`src/common/region.rs`: the limit is the region 2 enthalpy on B23, and the two equations differ there by up to 18 mK): 554.13 °C at 80.063 MPa, 7 mK below B23 (`C56_border_ph`); the right region from 50 mK on (C56).

## 6. Per property: model and proof

