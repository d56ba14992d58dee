import Verif.Model.Num
set_option linter.unusedVariables false

/-!
# src/algo/polynomial.rs and src/algo/polynomial_steps.rs

A coefficient table `&[(i32, i32, f64)]` is a `List (Int × Int × F)`; a loop
over it is `List.foldl` in the same order, so the sequence of floating point
operations is the same.  The exponents of all tables are below 100 in absolute
value, so the i32 products `e.0 * (e.0 - 1)` cannot overflow.
-/

namespace If97
open Flt
variable {F : Type} [Add F] [Sub F] [Mul F] [Div F] [Neg F] [OfScientific F] [Flt F]

/-- The double loop `for m in 0..steps.len() { for k in steps[m].0..steps[m].1 { body } }`
shared by all functions of `src/algo/polynomial_steps.rs`; `body` reads `IJn[k]`.
An index outside the table (a Rust panic) reads the entry `(0, 0, 0.0)` here;
`stepsFold?` below is the checked version. -/
def stepsFold {σ : Type} (body : σ → Int × Int × F → σ) (init : σ)
    (IJn : List (Int × Int × F)) (steps : List (Nat × Nat)) : σ :=
  steps.foldl (fun acc st =>
    (List.range' st.1 (st.2 - st.1)).foldl (fun acc k => body acc (IJn.getD k (0, 0, 0.0))) acc) init

/-- The same double loop with the bounds check of Rust: `none` is the panic. -/
def stepsFold? {σ : Type} (body : σ → Int × Int × F → σ) (init : σ)
    (IJn : List (Int × Int × F)) (steps : List (Nat × Nat)) : Option σ :=
  steps.foldlM (fun acc st =>
    (List.range' st.1 (st.2 - st.1)).foldlM (fun acc k => (IJn[k]?).map (body acc)) acc) init

/-- `src/algo/polynomial.rs:14-20` poly_powi -/
def poly_powi (vi vj : F) (IJn : List (Int × Int × F)) : F :=
  IJn.foldl (fun value e => value + e.2.2 * powi vi e.1 * powi vj e.2.1) 0.0

/-- `src/algo/polynomial.rs:24-30` poly_i_powi -/
def poly_i_powi (vi vj : F) (IJn : List (Int × Int × F)) : F :=
  IJn.foldl (fun value e => value + e.2.2 * ofI32 e.1 * powi vi (e.1 - 1) * powi vj e.2.1) 0.0

/-- `src/algo/polynomial.rs:34-40` poly_ii_powi -/
def poly_ii_powi (vi vj : F) (IJn : List (Int × Int × F)) : F :=
  IJn.foldl (fun value e => value + e.2.2 * ofI32 (e.1 * (e.1 - 1)) * powi vi (e.1 - 2) * powi vj e.2.1) 0.0

/-- `src/algo/polynomial.rs:44-50` poly_j_powi -/
def poly_j_powi (vi vj : F) (IJn : List (Int × Int × F)) : F :=
  IJn.foldl (fun value e => value + e.2.2 * powi vi e.1 * ofI32 e.2.1 * powi vj (e.2.1 - 1)) 0.0

/-- `src/algo/polynomial.rs:54-60` poly_jj_powi -/
def poly_jj_powi (vi vj : F) (IJn : List (Int × Int × F)) : F :=
  IJn.foldl (fun value e => value + e.2.2 * powi vi e.1 * ofI32 (e.2.1 * (e.2.1 - 1)) * powi vj (e.2.1 - 2)) 0.0

/-- `src/algo/polynomial.rs:62-68` poly_ij_powi -/
def poly_ij_powi (vi vj : F) (IJn : List (Int × Int × F)) : F :=
  IJn.foldl (fun value e => value + e.2.2 * ofI32 e.1 * powi vi (e.1 - 1) * ofI32 e.2.1 * powi vj (e.2.1 - 1)) 0.0

/-- Loop body of `polys_0_j_powi` and its step version: `(poly_0, poly_j)` -/
def polys_0_j_body (vi vj : F) (acc : F × F) (e : Int × Int × F) : F × F :=
  let item := e.2.2 * powi vi e.1 * powi vj e.2.1
  (acc.1 + item, acc.2 + ofI32 e.2.1 * item)

/-- Loop body of `polys_i_j_powi` and its step version: `(poly_i, poly_j)` -/
def polys_i_j_body (vi vj : F) (acc : F × F) (e : Int × Int × F) : F × F :=
  let item := e.2.2 * powi vi e.1 * powi vj e.2.1
  (acc.1 + ofI32 e.1 * item, acc.2 + ofI32 e.2.1 * item)

/-- Loop body of `polys_i_ii_ij_jj_powi` and its step version:
`(poly_i, poly_ii, poly_ij, poly_jj)` -/
def polys_i_ii_ij_jj_body (vi vj : F) (acc : F × F × F × F) (e : Int × Int × F) : F × F × F × F :=
  let item := e.2.2 * powi vi e.1 * powi vj e.2.1
  let i_item := ofI32 e.1 * item
  (acc.1 + i_item, acc.2.1 + ofI32 (e.1 - 1) * i_item, acc.2.2.1 + ofI32 e.2.1 * i_item,
    acc.2.2.2 + ofI32 (e.2.1 * (e.2.1 - 1)) * item)

/-- Loop body of `polys_i_ij_powi_steps`: `(poly_i, poly_ij)` -/
def polys_i_ij_body (vi vj : F) (acc : F × F) (e : Int × Int × F) : F × F :=
  let item := e.2.2 * ofI32 e.1 * powi vi (e.1 - 1) * powi vj e.2.1
  (acc.1 + item, acc.2 + ofI32 e.2.1 * item)

/-- Loop body of `polys_i_ii_powi_steps`: `(poly_i, poly_ii)` -/
def polys_i_ii_body (vi vj : F) (acc : F × F) (e : Int × Int × F) : F × F :=
  let item := e.2.2 * ofI32 e.1 * powi vi (e.1 - 1) * powi vj e.2.1
  (acc.1 + item, acc.2 + ofI32 (e.1 - 1) * item)

/-- `src/algo/polynomial.rs:73-85` polys_0_j_powi -/
def polys_0_j_powi (vi vj : F) (IJn : List (Int × Int × F)) : F × F :=
  let r := IJn.foldl (polys_0_j_body vi vj) (0.0, 0.0)
  (r.1, r.2 / vj)

/-- `src/algo/polynomial.rs:90-103` polys_i_j_powi -/
def polys_i_j_powi (vi vj : F) (IJn : List (Int × Int × F)) : F × F :=
  let r := IJn.foldl (polys_i_j_body vi vj) (0.0, 0.0)
  (r.1 / vi, r.2 / vj)

/-- `src/algo/polynomial.rs:111-135` polys_i_ii_ij_jj_powi -/
def polys_i_ii_ij_jj_powi (vi vj : F) (IJn : List (Int × Int × F)) : F × F × F × F :=
  let r := IJn.foldl (polys_i_ii_ij_jj_body vi vj) (0.0, 0.0, 0.0, 0.0)
  (r.1 / vi, r.2.1 / (vi * vi), r.2.2.1 / (vi * vj), r.2.2.2 / (vj * vj))

/-- `src/algo/polynomial_steps.rs:14-22` poly_powi_steps -/
def poly_powi_steps (vi vj : F) (IJn : List (Int × Int × F)) (steps : List (Nat × Nat)) : F :=
  stepsFold (fun value e => value + e.2.2 * powi vi e.1 * powi vj e.2.1) 0.0 IJn steps

/-- `src/algo/polynomial_steps.rs:25-33` poly_i_powi_steps -/
def poly_i_powi_steps (vi vj : F) (IJn : List (Int × Int × F)) (steps : List (Nat × Nat)) : F :=
  stepsFold (fun value e => value + e.2.2 * ofI32 e.1 * powi vi (e.1 - 1) * powi vj e.2.1) 0.0 IJn steps

/-- `src/algo/polynomial_steps.rs:36-44` poly_ii_powi_steps -/
def poly_ii_powi_steps (vi vj : F) (IJn : List (Int × Int × F)) (steps : List (Nat × Nat)) : F :=
  stepsFold (fun value e => value + e.2.2 * ofI32 (e.1 * (e.1 - 1)) * powi vi (e.1 - 2) * powi vj e.2.1) 0.0 IJn steps

/-- `src/algo/polynomial_steps.rs:58-66` poly_j_powi_steps -/
def poly_j_powi_steps (vi vj : F) (IJn : List (Int × Int × F)) (steps : List (Nat × Nat)) : F :=
  stepsFold (fun value e => value + e.2.2 * powi vi e.1 * ofI32 e.2.1 * powi vj (e.2.1 - 1)) 0.0 IJn steps

/-- `src/algo/polynomial_steps.rs:71-79` poly_jj_powi_steps -/
def poly_jj_powi_steps (vi vj : F) (IJn : List (Int × Int × F)) (steps : List (Nat × Nat)) : F :=
  stepsFold (fun value e => value + e.2.2 * powi vi e.1 * ofI32 (e.2.1 * (e.2.1 - 1)) * powi vj (e.2.1 - 2)) 0.0 IJn steps

/-- `src/algo/polynomial_steps.rs:47-55` poly_ij_powi_steps -/
def poly_ij_powi_steps (vi vj : F) (IJn : List (Int × Int × F)) (steps : List (Nat × Nat)) : F :=
  stepsFold (fun value e => value + e.2.2 * ofI32 e.1 * powi vi e.1 * ofI32 e.2.1 * powi vj e.2.1) 0.0 IJn steps / vi / vj

/-- `src/algo/polynomial_steps.rs:87-101` polys_0_j_powi_steps -/
def polys_0_j_powi_steps (vi vj : F) (IJn : List (Int × Int × F)) (steps : List (Nat × Nat)) : F × F :=
  let r := stepsFold (polys_0_j_body vi vj) (0.0, 0.0) IJn steps
  (r.1, r.2 / vj)

/-- `src/algo/polynomial_steps.rs:104-119` polys_i_j_powi_steps -/
def polys_i_j_powi_steps (vi vj : F) (IJn : List (Int × Int × F)) (steps : List (Nat × Nat)) : F × F :=
  let r := stepsFold (polys_i_j_body vi vj) (0.0, 0.0) IJn steps
  (r.1 / vi, r.2 / vj)

/-- `src/algo/polynomial_steps.rs:122-135` polys_i_ij_powi_steps -/
def polys_i_ij_powi_steps (vi vj : F) (IJn : List (Int × Int × F)) (steps : List (Nat × Nat)) : F × F :=
  let r := stepsFold (polys_i_ij_body vi vj) (0.0, 0.0) IJn steps
  (r.1, r.2 / vj)

/-- `src/algo/polynomial_steps.rs:138-152` polys_i_ii_powi_steps -/
def polys_i_ii_powi_steps (vi vj : F) (IJn : List (Int × Int × F)) (steps : List (Nat × Nat)) : F × F :=
  let r := stepsFold (polys_i_ii_body vi vj) (0.0, 0.0) IJn steps
  (r.1, r.2 / vi)

/-- `src/algo/polynomial_steps.rs:155-181` polys_i_ii_ij_jj_powi_steps -/
def polys_i_ii_ij_jj_powi_steps (vi vj : F) (IJn : List (Int × Int × F)) (steps : List (Nat × Nat)) :
    F × F × F × F :=
  let r := stepsFold (polys_i_ii_ij_jj_body vi vj) (0.0, 0.0, 0.0, 0.0) IJn steps
  (r.1 / vi, r.2.1 / (vi * vi), r.2.2.1 / (vi * vj), r.2.2.2 / (vj * vj))

end If97
