/-
Generated by tools/rs2lean.py from the Rust sources cited below.
Number type `F` is abstract; see Verif/Model/Num.lean for the conventions.
-/
import Verif.Model.Poly
import Verif.Model.Const
set_option linter.unusedVariables false

namespace If97
open Flt
variable {F : Type} [Add F] [Sub F] [Mul F] [Div F] [Neg F] [OfScientific F] [Flt F]

/-! ### src/r2/region2_gfe.rs -/

/-- `src/r2/region2_gfe.rs`:16 -/
def r2_J0 : List Int :=
  [ 0,
    1,
    -5,
    -4,
    -3,
    -2,
    -1,
    2,
    3 ]

/-- `src/r2/region2_gfe.rs`:17-27 -/
def r2_n0 : List F :=
  [ -0.96927686500217e1,
    0.10086655968018e2,
    -0.5608791128302e-2,
    0.71452738081455e-1,
    -0.40710498223928,
    0.14240819171444e1,
    -0.43839511319450e1,
    -0.28408632460772,
    0.21268463753307e-1 ]

/-- `src/r2/region2_gfe.rs`:30-75 -/
def r2_IJn : List (Int × Int × F) :=
  [ (1, 0, -0.17731742473213e-2),
    (1, 1, -0.17834862292358e-1),
    (1, 2, -0.45996013696365e-1),
    (1, 3, -0.57581259083432e-1),
    (1, 6, -0.5032527872793e-1),
    (2, 1, -0.33032641670203e-4),
    (2, 2, -0.18948987516315e-3),
    (2, 4, -0.39392777243355e-2),
    (2, 7, -0.43797295650573e-1),
    (2, 36, -2.6674547914087e-5),
    (3, 0, 0.20481737692309e-7),
    (3, 1, 0.43870667284435e-6),
    (3, 3, -0.3227767723857e-4),
    (3, 6, -0.15033924542148e-2),
    (3, 35, -0.040668253562649),
    (4, 1, -7.8847309559367e-10),
    (4, 2, 1.2790717852285e-8),
    (4, 3, 4.8225372718507e-7),
    (5, 7, 2.2922076337661e-6),
    (6, 3, -1.6714766451061e-11),
    (6, 16, -2.1171472321355e-3),
    (6, 35, -23.895741934104),
    (7, 0, -5.905956432427e-18),
    (7, 11, -1.2621808899101e-6),
    (7, 25, -0.038946842435739),
    (8, 8, 1.1256211360459e-11),
    (8, 36, -8.2311340897998),
    (9, 13, 1.9809712802088e-8),
    (10, 4, 1.0406965210174e-19),
    (10, 10, -1.0234747095929e-13),
    (10, 14, -1.0018179379511e-9),
    (16, 29, -8.0882908646985e-11),
    (16, 50, 0.10693031879409),
    (18, 57, -0.33662250574171),
    (20, 20, 8.9185845355421e-25),
    (20, 35, 3.0629316876232e-13),
    (20, 48, -4.2002467698208e-6),
    (21, 21, -5.9056029685639e-26),
    (22, 53, 3.7826947613457e-6),
    (23, 39, -1.2768608934681e-15),
    (24, 26, 7.3087610595061e-29),
    (24, 40, 5.5414715350778e-17),
    (24, 58, -9.436970724121e-7) ]

/-- `src/r2/region2_gfe.rs:78-84` gamma0_reg2 -/
def gamma0_reg2 (pi : F) (tau : F) : F :=
  let result : F := fln pi
  let result := (List.range' 0 9).foldl (fun result i =>
      result + nthF r2_n0 i * powi tau (nthI r2_J0 i)) result
  result

/-- `src/r2/region2_gfe.rs:87-89` gamma0_pi_reg2 -/
def gamma0_pi_reg2 (pi : F) : F :=
  1.0 / pi

/-- `src/r2/region2_gfe.rs:92-94` gamma0_pipi_reg2 -/
def gamma0_pipi_reg2 (pi : F) : F :=
  (-1.0 / pi / pi)

/-- `src/r2/region2_gfe.rs:97-103` gamma0_tau_reg2 -/
def gamma0_tau_reg2 (tau : F) : F :=
  let result : F := 0.0
  let result := (List.range' 0 9).foldl (fun result i =>
      result + nthF r2_n0 i * ofI32 (nthI r2_J0 i) * powi tau (nthI r2_J0 i - 1)) result
  result

/-- `src/r2/region2_gfe.rs:106-112` gamma0_tautau_reg2 -/
def gamma0_tautau_reg2 (pi : F) (tau : F) : F :=
  let result : F := 0.0
  let result := (List.range' 0 9).foldl (fun result i =>
      result + nthF r2_n0 i * ofI32 (nthI r2_J0 i * (nthI r2_J0 i - 1)) * powi tau (nthI r2_J0 i - 2)) result
  result

/-- `src/r2/region2_gfe.rs:115-117` gamma0_pitau_reg2 -/
def gamma0_pitau_reg2 : F :=
  0.0

/-- `src/r2/region2_gfe.rs` -/
def gammar_reg2_steps : List (Nat × Nat) := [(0, 19), (19, 38), (38, 43)]

/-- `src/r2/region2_gfe.rs:120-123` gammar_reg2 -/
def gammar_reg2 (pi : F) (tau : F) : F :=
  poly_powi_steps pi (tau - 0.5) r2_IJn gammar_reg2_steps

/-- `src/r2/region2_gfe.rs` -/
def gammar_pi_reg2_steps : List (Nat × Nat) := [(0, 16), (16, 32), (32, 43)]

/-- `src/r2/region2_gfe.rs:126-131` gammar_pi_reg2 -/
def gammar_pi_reg2 (pi : F) (tau : F) : F :=
  poly_i_powi_steps pi (tau - 0.5) r2_IJn gammar_pi_reg2_steps

/-- `src/r2/region2_gfe.rs` -/
def gammar_pipi_reg2_steps : List (Nat × Nat) := [(0, 13), (13, 26), (26, 43)]

/-- `src/r2/region2_gfe.rs:134-137` gammar_pipi_reg2 -/
def gammar_pipi_reg2 (pi : F) (tau : F) : F :=
  poly_ii_powi_steps pi (tau - 0.5) r2_IJn gammar_pipi_reg2_steps

/-- `src/r2/region2_gfe.rs` -/
def gammar_tau_reg2_steps : List (Nat × Nat) := [(0, 13), (13, 26), (26, 43)]

/-- `src/r2/region2_gfe.rs:140-143` gammar_tau_reg2 -/
def gammar_tau_reg2 (pi : F) (tau : F) : F :=
  poly_j_powi_steps pi (tau - 0.5) r2_IJn gammar_tau_reg2_steps

/-- `src/r2/region2_gfe.rs` -/
def gammar_tautau_reg2_steps : List (Nat × Nat) := [(0, 13), (13, 26), (26, 43)]

/-- `src/r2/region2_gfe.rs:146-149` gammar_tautau_reg2 -/
def gammar_tautau_reg2 (pi : F) (tau : F) : F :=
  poly_jj_powi_steps pi (tau - 0.5) r2_IJn gammar_tautau_reg2_steps

/-- `src/r2/region2_gfe.rs` -/
def gammar_pitau_reg2_steps : List (Nat × Nat) := [(0, 13), (13, 26), (26, 43)]

/-- `src/r2/region2_gfe.rs:152-155` gammar_pitau_reg2 -/
def gammar_pitau_reg2 (pi : F) (tau : F) : F :=
  poly_ij_powi_steps pi (tau - 0.5) r2_IJn gammar_pitau_reg2_steps

/-- `src/r2/region2_gfe.rs` -/
def polys_0_j_powi_reg2_steps : List (Nat × Nat) := [(0, 13), (13, 26), (26, 43)]

/-- `src/r2/region2_gfe.rs:159-163` polys_0_j_powi_reg2 -/
def polys_0_j_powi_reg2 (pi : F) (tau : F) : (F × F) :=
  let (gammar, gammar_tau) := polys_0_j_powi_steps pi (tau - 0.5) r2_IJn polys_0_j_powi_reg2_steps
  (gammar, gammar_tau)

/-- `src/r2/region2_gfe.rs` -/
def polys_i_j_powi_reg2_steps : List (Nat × Nat) := [(0, 13), (13, 26), (26, 43)]

/-- `src/r2/region2_gfe.rs:165-169` polys_i_j_powi_reg2 -/
def polys_i_j_powi_reg2 (pi : F) (tau : F) : (F × F) :=
  let (gammar, gammar_tau) := polys_i_j_powi_steps pi (tau - 0.5) r2_IJn polys_i_j_powi_reg2_steps
  (gammar, gammar_tau)

/-- `src/r2/region2_gfe.rs` -/
def polys_i_ii_ij_jj_powi_reg2_steps : List (Nat × Nat) := [(0, 11), (11, 22), (22, 33), (33, 43)]

/-- `src/r2/region2_gfe.rs:171-176` polys_i_ii_ij_jj_powi_reg2 -/
def polys_i_ii_ij_jj_powi_reg2 (pi : F) (tau : F) : (F × F × F × F) :=
  let (gammar_pi, gammar_pipi, gammar_pitau, gammar_tautau) := polys_i_ii_ij_jj_powi_steps pi (tau - 0.5) r2_IJn polys_i_ii_ij_jj_powi_reg2_steps
  (gammar_pi, gammar_pipi, gammar_pitau, gammar_tautau)

/-! ### src/r2/region2_pT.rs -/

/-- `src/r2/region2_pT.rs`:19 -/
def r2Tstar : F := 540.0

/-- `src/r2/region2_pT.rs`:20 -/
def r2pstar : F := 1.0

/-- `src/r2/region2_pT.rs:22-27` pT2v_reg2 -/
def pT2v_reg2 (p : F) (T : F) : F :=
  let tau : F := r2Tstar / T
  let pi : F := p
  let gammar_pi : F := gammar_pi_reg2 pi tau
  0.001 * RGAS_WATER * T * (gamma0_pi_reg2 pi + gammar_pi)

/-- `src/r2/region2_pT.rs:29-34` pT2h_reg2 -/
def pT2h_reg2 (p : F) (T : F) : F :=
  let tau : F := r2Tstar / T
  let pi : F := p
  let gammar_tau : F := gammar_tau_reg2 pi tau
  RGAS_WATER * r2Tstar * (gamma0_tau_reg2 tau + gammar_tau)

/-- `src/r2/region2_pT.rs:36-52` pT2s_reg2 -/
def pT2s_reg2 (p : F) (T : F) : F :=
  let tau : F := r2Tstar / T
  let pi : F := p
  let gamma0 : F := fln pi
  let gamma0_tau : F := 0.0
  let (gamma0, gamma0_tau) := (List.range' 0 9).foldl (fun (gamma0, gamma0_tau) i =>
      let gamma0_item := nthF r2_n0 i * powi tau (nthI r2_J0 i)
      let gamma0 := gamma0 + gamma0_item
      let gamma0_tau := gamma0_tau + gamma0_item * ofI32 (nthI r2_J0 i)
      (gamma0, gamma0_tau)) (gamma0, gamma0_tau)
  let gamma0_tau := gamma0_tau / tau
  let (gammar, gammar_tau) := polys_0_j_powi_reg2 pi tau
  RGAS_WATER * (tau * (gamma0_tau + gammar_tau) - (gamma0 + gammar))

/-- `src/r2/region2_pT.rs:54-60` pT2u_reg2 -/
def pT2u_reg2 (p : F) (T : F) : F :=
  let tau : F := r2Tstar / T
  let pi : F := p
  let (gammar_pi, gammar_tau) := polys_i_j_powi_reg2 pi tau
  RGAS_WATER * T * (tau * (gamma0_tau_reg2 tau + gammar_tau) - pi * (gamma0_pi_reg2 pi + gammar_pi))

/-- `src/r2/region2_pT.rs:62-66` pT2cp_reg2 -/
def pT2cp_reg2 (p : F) (T : F) : F :=
  let tau : F := r2Tstar / T
  let pi : F := p
  (-RGAS_WATER * tau * tau * (gamma0_tautau_reg2 pi tau + gammar_tautau_reg2 pi tau))

/-- `src/r2/region2_pT.rs:68-80` pT2cv_reg2 -/
def pT2cv_reg2 (p : F) (T : F) : F :=
  let tau : F := r2Tstar / T
  let pi : F := p
  let gamma0_tautau : F := gamma0_tautau_reg2 pi tau
  let (gammar_pi, gammar_pipi, gammar_pitau, gammar_tautau) := polys_i_ii_ij_jj_powi_reg2 pi tau
  let a : F := 1.0 + pi * (gammar_pi - tau * gammar_pitau)
  let b : F := a * a / (1.0 - pi * pi * gammar_pipi)
  let c : F := -tau * tau * (gamma0_tautau + gammar_tautau)
  RGAS_WATER * (c - b)

/-- `src/r2/region2_pT.rs:82-98` pT2w_reg2 -/
def pT2w_reg2 (p : F) (T : F) : F :=
  let tau : F := r2Tstar / T
  let pi : F := p
  let gamma0_tautau : F := gamma0_tautau_reg2 pi tau
  let (gammar_pi, gammar_pipi, gammar_pitau, gammar_tautau) := polys_i_ii_ij_jj_powi_reg2 pi tau
  let a : F := pi * gammar_pi
  let a := a * a
  let r1 : F := 1000.0 * RGAS_WATER * T * (1.0 + 2.0 * pi * gammar_pi + a)
  let b : F := 1.0 + pi * gammar_pi - tau * pi * gammar_pitau
  let b := b * b
  let r2 : F := 1.0 - pi * pi * gammar_pipi + b / (tau * tau * (gamma0_tautau + gammar_tautau))
  let r : F := r1 / r2
  fsqrt r

/-! ### src/r2/region2_pT_ext.rs -/

/-- `src/r2/region2_pT_ext.rs:35-39` pT2ks_reg2 -/
def pT2ks_reg2 (p : F) (T : F) : F :=
  let v : F := pT2v_reg2 p T
  let w : F := pT2w_reg2 p T
  1.0e-6 * w * w / v / p

/-- `src/r2/region2_pT_ext.rs:98-104` pT2dvdtcp_reg2 -/
def pT2dvdtcp_reg2 (p : F) (T : F) : F :=
  let tau : F := r2Tstar / T
  let pi : F := p
  let gummapi : F := gamma0_pi_reg2 pi + gammar_pi_reg2 pi tau
  let gummapitau : F := gamma0_pitau_reg2 + gammar_pitau_reg2 pi tau
  0.001 * RGAS_WATER * (gummapi - tau * gummapitau)

/-- `src/r2/region2_pT_ext.rs:43-48` pT2ec_reg2 -/
def pT2ec_reg2 (p : F) (T : F) : F :=
  let d : F := 1.0 / pT2v_reg2 p T
  d * pT2dvdtcp_reg2 p T

/-- `src/r2/region2_pT_ext.rs:51-57` pT2kt_reg2 -/
def pT2kt_reg2 (p : F) (T : F) : F :=
  let tau : F := r2Tstar / T
  let pi : F := p
  let gummapipi : F := gamma0_pipi_reg2 pi + gammar_pipi_reg2 pi tau
  let gummapi : F := gamma0_pi_reg2 pi + gammar_pi_reg2 pi tau
  (-(gummapipi / gummapi))

/-- `src/r2/region2_pT_ext.rs:61-65` pT2g_reg2 -/
def pT2g_reg2 (p : F) (T : F) : F :=
  let tau : F := r2Tstar / T
  let pi : F := p
  RGAS_WATER * T * (gamma0_reg2 pi tau + gammar_reg2 pi tau)

/-- `src/r2/region2_pT_ext.rs:69-73` pT2f_reg2 -/
def pT2f_reg2 (p : F) (T : F) : F :=
  let tau : F := r2Tstar / T
  let pi : F := p
  RGAS_WATER * T * (gamma0_reg2 pi tau + gammar_reg2 pi tau - p * (gamma0_pi_reg2 pi + gammar_pi_reg2 pi tau))

/-- `src/r2/region2_pT_ext.rs:77-87` pT2joule_reg2 -/
def pT2joule_reg2 (p : F) (T : F) : F :=
  let tau : F := r2Tstar / T
  let pi : F := p
  let gummapi : F := gamma0_pi_reg2 pi + gammar_pi_reg2 pi tau
  let gummatautau : F := gamma0_tautau_reg2 pi tau + gammar_tautau_reg2 pi tau
  let gummapitau : F := gamma0_pitau_reg2 + gammar_pitau_reg2 pi tau
  let v : F := RGAS_WATER * T * gummapi
  let cp : F := -RGAS_WATER * tau * tau * gummatautau
  let TCex_1 : F := -tau * gummapitau / gummapi
  v / cp * TCex_1

/-- `src/r2/region2_pT_ext.rs:90-95` pT2dvdpct_reg2 -/
def pT2dvdpct_reg2 (p : F) (T : F) : F :=
  let tau : F := r2Tstar / T
  let pi : F := p
  let gummapipi : F := gamma0_pipi_reg2 pi + gammar_pipi_reg2 pi tau
  0.001 * RGAS_WATER * T * gummapipi

/-- `src/r2/region2_pT_ext.rs:109-114` pT2iJTC_reg2 -/
def pT2iJTC_reg2 (p : F) (T : F) : F :=
  let tau : F := r2Tstar / T
  let pi : F := p
  let gummapitau : F := gamma0_pitau_reg2 + gammar_pitau_reg2 pi tau
  0.001 * RGAS_WATER * r2Tstar * gummapitau

/-- `src/r2/region2_pT_ext.rs:121-128` pT2dpdtcv_reg2 -/
def pT2dpdtcv_reg2 (p : F) (T : F) : F :=
  let tau : F := r2Tstar / T
  let pi : F := p
  let gummapi : F := gamma0_pi_reg2 pi + gammar_pi_reg2 pi tau
  let gummapitau : F := gamma0_pitau_reg2 + gammar_pitau_reg2 pi tau
  let gummapipi : F := gamma0_pipi_reg2 pi + gammar_pipi_reg2 pi tau
  1.0 * (gummapitau * r2Tstar - gummapi * T) / (T * T * gummapipi)

/-- `src/r2/region2_pT_ext.rs:132-134` pT2pc_reg2 -/
def pT2pc_reg2 (p : F) (T : F) : F :=
  1.0 / p * pT2dpdtcv_reg2 p T

/-- `src/r2/region2_pT_ext.rs:137-143` pT2e_reg2 -/
def pT2e_reg2 (p : F) (T : F) : F :=
  let tau : F := r2Tstar / T
  let pi : F := p
  let gumma : F := gamma0_reg2 pi tau + gammar_reg2 pi tau
  let gummatau : F := gamma0_tau_reg2 tau + gammar_tau_reg2 pi tau
  RGAS_WATER * (T * gumma + (T - Tt) * (tau * gummatau - gumma))

/-- `src/r2/region2_pT_ext.rs:146-149` pT2z_reg2 -/
def pT2z_reg2 (p : F) (T : F) : F :=
  let v : F := pT2v_reg2 p T
  1000.0 * p * v / RGAS_WATER / T

/-- `src/r2/region2_pT_ext.rs:155-159` pT2batap_reg2 -/
def pT2batap_reg2 (p : F) (T : F) : F :=
  let v : F := pT2v_reg2 p T
  let kt : F := pT2kt_reg2 p T
  1.0 / (p * v * kt)

/-- `src/r2/region2_pT_ext.rs:163-169` pT2fi_reg2 -/
def pT2fi_reg2 (p : F) (T : F) : F :=
  let g : F := pT2g_reg2 p T
  let tau : F := r2Tstar / T
  let pi : F := p
  let g0 : F := T * RGAS_WATER * gamma0_reg2 pi tau
  fexp ((g - g0) / RGAS_WATER / T)

/-- `src/r2/region2_pT_ext.rs:173-176` pT2fu_reg2 -/
def pT2fu_reg2 (p : F) (T : F) : F :=
  let fi : F := pT2fi_reg2 p T
  p * fi

/-- `src/r2/region2_pT_ext.rs:180-184` pT2alfap_reg2 -/
def pT2alfap_reg2 (p : F) (T : F) : F :=
  let ec : F := pT2ec_reg2 p T
  let kt : F := pT2kt_reg2 p T
  ec / p / kt

/-- `src/r2/region2_pT_ext.rs:10-31` pT_ext_reg2 -/
def pT_ext_reg2 (p : F) (T : F) (o_id : Int) : F :=
  if o_id == OKS then
    pT2ks_reg2 p T
  else if o_id == OF then
    pT2f_reg2 p T
  else if o_id == OG then
    pT2g_reg2 p T
  else if o_id == OZ then
    pT2z_reg2 p T
  else if o_id == OKT then
    pT2kt_reg2 p T
  else if o_id == OEC then
    pT2ec_reg2 p T
  else if o_id == OJTC then
    pT2joule_reg2 p T
  else if o_id == OIJTC then
    pT2iJTC_reg2 p T
  else if o_id == OPC then
    pT2pc_reg2 p T
  else if o_id == ODPDT then
    pT2dpdtcv_reg2 p T
  else if o_id == ODVDP then
    pT2dvdpct_reg2 p T
  else if o_id == ODVDT then
    pT2dvdtcp_reg2 p T
  else if o_id == OE then
    pT2e_reg2 p T
  else if o_id == OBETAP then
    pT2batap_reg2 p T
  else if o_id == OFI then
    pT2fi_reg2 p T
  else if o_id == OFU then
    pT2fu_reg2 p T
  else if o_id == OALFAP then
    pT2alfap_reg2 p T
  else
    ofI32 INVALID_OUTID

/-! ### src/r2/region2_T_ph.rs -/

/-- `src/r2/region2_T_ph.rs`:10-46 -/
def ph2T_reg2a_IJn : List (Int × Int × F) :=
  [ (0, 0, 0.10898952318288e4),
    (0, 1, 0.84951654495535e3),
    (0, 2, -0.10781748091826e3),
    (0, 3, 0.33153654801263e2),
    (0, 7, -0.74232016790248e1),
    (0, 20, 0.11765048724356e2),
    (1, 0, 0.18445749355790e1),
    (1, 1, -0.41792700549624e1),
    (1, 2, 0.62478196935812e1),
    (1, 3, -0.17344563108114e2),
    (1, 7, -0.20058176862096e3),
    (1, 9, 0.27196065473796e3),
    (1, 11, -0.45511318285818e3),
    (1, 18, 0.30919688604755e4),
    (1, 44, 0.25226640357872e6),
    (2, 0, -0.61707422868339e-2),
    (2, 2, -0.31078046629583e0),
    (2, 7, 0.11670873077107e2),
    (2, 36, 0.12812798404046e9),
    (2, 38, -0.98554909623276e9),
    (2, 40, 0.28224546973002e10),
    (2, 42, -0.35948971410703e10),
    (2, 44, 0.17227349913197e10),
    (3, 24, -0.13551334240775e5),
    (3, 44, 0.12848734664650e8),
    (4, 12, 0.13865724283226e1),
    (4, 32, 0.23598832556514e6),
    (4, 44, -0.13105236545054e8),
    (5, 32, 0.73999835474766e4),
    (5, 36, -0.55196697030060e6),
    (5, 42, 0.37154085996233e7),
    (6, 34, 0.19127729239660e5),
    (6, 44, -0.41535164835634e6),
    (7, 28, -0.62459855192507e2) ]

/-- `src/r2/region2_T_ph.rs:8-51` ph2T_reg2a -/
def ph2T_reg2a (p : F) (h : F) : F :=
  let pi : F := p / 1.0
  let eta : F := h / 2000.0 - 2.1
  1.0 * poly_powi pi eta ph2T_reg2a_IJn

/-- `src/r2/region2_T_ph.rs`:55-94 -/
def ph2T_reg2b_IJn : List (Int × Int × F) :=
  [ (0, 0, 1.4895041079516e3),
    (0, 1, 7.4307798314034e2),
    (0, 2, -9.7708318797837e1),
    (0, 12, 2.4742464705674),
    (0, 18, -6.3281320016026e-1),
    (0, 24, 1.1385952129658),
    (0, 28, -4.7811863648625e-1),
    (0, 40, 8.5208123431544e-3),
    (1, 0, 9.3747147377932e-1),
    (1, 2, 3.3593118604916),
    (1, 6, 3.3809355601454),
    (1, 12, 1.6844539671904e-1),
    (1, 18, 7.3875745236695e-1),
    (1, 24, -4.7128737436186e-1),
    (1, 28, 1.5020273139707e-1),
    (1, 40, -2.1764114219750e-3),
    (2, 2, -2.1810755324761e-2),
    (2, 8, -1.0829784403677e-1),
    (2, 18, -4.6333324635812e-2),
    (2, 40, 7.1280351959551e-5),
    (3, 1, 1.1032831789999e-4),
    (3, 2, 1.8955248387902e-4),
    (3, 12, 3.0891541160537e-3),
    (3, 24, 1.3555504554949e-3),
    (4, 2, 2.8640237477456e-7),
    (4, 12, -1.0779857357512e-5),
    (4, 18, -7.6462712454814e-5),
    (4, 24, 1.4052392818316e-5),
    (4, 28, -3.1083814331434e-5),
    (4, 40, -1.0302738212103e-6),
    (5, 18, 2.8217281635040e-7),
    (5, 24, 1.2704902271945e-6),
    (5, 40, 7.3803353468292e-8),
    (6, 28, -1.1030139238909e-8),
    (7, 2, -8.1456365207833e-14),
    (7, 28, -2.5180545682962e-11),
    (9, 1, -1.7565233969407e-18),
    (9, 40, 8.6934156344163e-15) ]

/-- `src/r2/region2_T_ph.rs` -/
def ph2T_reg2b_steps : List (Nat × Nat) := [(0, 24), (24, 38)]

/-- `src/r2/region2_T_ph.rs:53-100` ph2T_reg2b -/
def ph2T_reg2b (p : F) (h : F) : F :=
  let pi : F := p / 1.0 - 2.0
  let eta : F := h / 2000.0 - 2.6
  1.0 * poly_powi_steps pi eta ph2T_reg2b_IJn ph2T_reg2b_steps

/-- `src/r2/region2_T_ph.rs`:104-130 -/
def ph2T_reg2c_IJn : List (Int × Int × F) :=
  [ (-7, 0, -3236839855524.2),
    (-7, 4, 7326335090218.1),
    (-6, 0, 358250899454.47),
    (-6, 2, -583401318515.9),
    (-5, 0, -10783068217.47),
    (-5, 2, 20825544563.171),
    (-2, 0, 610747.83564516),
    (-2, 1, 859777.2253558),
    (-1, 0, -25745.72360417),
    (-1, 2, 31081.088422714),
    (0, 0, 1208.2315865936),
    (0, 1, 482.19755109255),
    (1, 4, 3.7966001272486),
    (1, 8, -10.842984880077),
    (2, 4, -0.04536417267666),
    (6, 0, 1.4559115658698e-13),
    (6, 1, 1.126159740723e-12),
    (6, 4, -1.7804982240686e-11),
    (6, 10, 1.2324579690832e-7),
    (6, 12, -1.1606921130984e-6),
    (6, 16, 2.7846367088554e-5),
    (6, 20, -5.9270038474176e-4),
    (6, 22, 1.2918582991878e-3) ]

/-- `src/r2/region2_T_ph.rs:102-135` ph2T_reg2c -/
def ph2T_reg2c (p : F) (h : F) : F :=
  let pi : F := p / 1.0 + 25.0
  let eta : F := h / 2000.0 - 1.8
  1.0 * poly_powi pi eta ph2T_reg2c_IJn

/-- `src/r2/region2_T_ph.rs`:139 -/
def enthalpy_2bc_n : List F := [0.12809002730136e-3, 0.26526571908428e4, 0.45257578905948e1]

/-- `src/r2/region2_T_ph.rs:138-141` enthalpy_2bc -/
def enthalpy_2bc (p : F) : F :=
  nthF enthalpy_2bc_n 1 + fsqrt ((p - nthF enthalpy_2bc_n 2) / nthF enthalpy_2bc_n 0)

/-- `src/r2/region2_T_ph.rs:143-156` ph2T_reg2 -/
def ph2T_reg2 (p : F) (h : F) : F :=
  let T :=
    if p >. 4.0 then
      if h <. enthalpy_2bc p then
        ph2T_reg2c p h
      else
        ph2T_reg2b p h
    else
      ph2T_reg2a p h
  T

/-! ### src/r2/region2_T_ps.rs -/

/-- `src/r2/region2_T_ps.rs`:12-68 -/
def ps2T_reg2a_IJn : List (F × Int × F) :=
  [ (-1.5, -24, -0.39235983861984e6),
    (-1.5, -23, 0.51526573827270e6),
    (-1.5, -19, 0.40482443161048e5),
    (-1.5, -13, -0.32193790923902e3),
    (-1.5, -11, 0.96961424218694e2),
    (-1.5, -10, -0.22867846371773e2),
    (-1.25, -19, -0.44942914124357e6),
    (-1.25, -15, -0.50118336020166e4),
    (-1.25, -6, 0.35684463560015e0),
    (-1.0, -26, 0.44235335848190e5),
    (-1.0, -21, -0.13673388811708e5),
    (-1.0, -17, 0.42163260207864e6),
    (-1.0, -16, 0.22516925837475e5),
    (-1.0, -9, 0.47442144865646e3),
    (-1.0, -8, -0.14931130797647e3),
    (-0.75, -15, -0.19781126320452e6),
    (-0.75, -14, -0.23554399470760e5),
    (-0.5, -26, -0.19070616302076e5),
    (-0.5, -13, 0.55375669883164e5),
    (-0.5, -9, 0.38293691437363e4),
    (-0.5, -7, -0.60391860580567e3),
    (-0.25, -27, 0.19363102620331e4),
    (-0.25, -25, 0.42660643698610e4),
    (-0.25, -11, -0.59780638872718e4),
    (-0.25, -6, -0.70401463926862e3),
    (0.25, 1, 0.33836784107553e3),
    (0.25, 4, 0.20862786635187e2),
    (0.25, 8, 0.33834172656196e-1),
    (0.25, 11, -0.43124428414893e-4),
    (0.5, 0, 0.16653791356412e3),
    (0.5, 1, -0.13986292055898e3),
    (0.5, 5, -0.78849547999872e0),
    (0.5, 6, 0.72132411753872e-1),
    (0.5, 10, -0.59754839398283e-2),
    (0.5, 14, -0.12141358953904e-4),
    (0.5, 16, 0.23227096733871e-6),
    (0.75, 0, -0.10538463566194e2),
    (0.75, 4, 0.20718925496502e1),
    (0.75, 9, -0.72193155260427e-1),
    (0.75, 17, 0.20749887081120e-6),
    (1.0, 7, -0.18340657911379e-1),
    (1.0, 18, 0.29036272348696e-6),
    (1.25, 3, 0.21037527893619e0),
    (1.25, 15, 0.2568123972999e-3),
    (1.5, 5, -0.1279900293381e-1),
    (1.5, 18, -0.82198102652018e-5) ]

/-- `src/r2/region2_T_ps.rs:10-77` ps2T_reg2a -/
def ps2T_reg2a (p : F) (s : F) : F :=
  let pi : F := p / 1.0
  let sigma : F := s / 2.0 - 2.0
  let theta : F := 0.0
  let theta := ps2T_reg2a_IJn.foldl (fun theta k =>
      theta + k.2.2 * powf pi k.1 * powi sigma k.2.1) theta
  1.0 * theta

/-- `src/r2/region2_T_ps.rs`:81-126 -/
def ps2T_reg2b_IJn : List (Int × Int × F) :=
  [ (-6, 0, 0.31687665083497e6),
    (-6, 11, 0.20864175881858e2),
    (-5, 0, -0.39859399803599e6),
    (-5, 11, -0.21816058518877e2),
    (-4, 0, 0.22369785194242e6),
    (-4, 1, -0.27841703445817e4),
    (-4, 11, 0.99207436071480e1),
    (-3, 0, -0.75197512299157e5),
    (-3, 1, 0.29708605951158e4),
    (-3, 11, -0.34406878548526e1),
    (-3, 12, 0.38815564249115),
    (-2, 0, 0.17511295085750e5),
    (-2, 1, -0.14237112854449e4),
    (-2, 6, 0.10943803364167e1),
    (-2, 10, 0.89971619308495),
    (-1, 0, -0.33759740098958e4),
    (-1, 1, 0.47162885818355e3),
    (-1, 5, -0.19188241993679e1),
    (-1, 8, 0.41078580492196),
    (-1, 9, -0.33465378172097),
    (0, 0, 0.13870034777505e4),
    (0, 1, -0.40663326195838e3),
    (0, 2, 0.41727347159610e2),
    (0, 4, 0.21932549434532e1),
    (0, 5, -0.10320050009077e1),
    (0, 6, 0.35882943516703),
    (0, 9, 0.52511453726066e-2),
    (1, 0, 0.12838916450705e2),
    (1, 1, -0.28642437219381e1),
    (1, 2, 0.56912683664855),
    (1, 3, -0.99962954584931e-1),
    (1, 7, -0.32632037778459e-2),
    (1, 8, 0.23320922576723e-3),
    (2, 0, -0.15334809857450),
    (2, 1, 0.29072288239902e-1),
    (2, 5, 0.37534702741167e-3),
    (3, 0, 0.17296691702411e-2),
    (3, 1, -0.38556050844504e-3),
    (3, 3, -0.35017712292608e-4),
    (4, 0, -0.14566393631492e-4),
    (4, 1, 0.56420857267269e-5),
    (5, 0, 0.41286150074605e-7),
    (5, 1, -0.20684671118824e-7),
    (5, 2, 0.16409393674725e-8) ]

/-- `src/r2/region2_T_ps.rs` -/
def ps2T_reg2b_steps : List (Nat × Nat) := [(0, 22), (22, 44)]

/-- `src/r2/region2_T_ps.rs:79-132` ps2T_reg2b -/
def ps2T_reg2b (p : F) (s : F) : F :=
  let pi : F := p / 1.0
  let sigma : F := 10.0 - s / 0.7853
  1.0 * poly_powi_steps pi sigma ps2T_reg2b_IJn ps2T_reg2b_steps

/-- `src/r2/region2_T_ps.rs`:136-167 -/
def ps2T_reg2c_IJn : List (Int × Int × F) :=
  [ (-2, 0, 0.90968501005365e3),
    (-2, 1, 0.24045667088420e4),
    (-1, 0, -0.59162326387130e3),
    (0, 0, 0.54145404128074e3),
    (0, 1, -0.27098308411192e3),
    (0, 2, 0.97976525097926e3),
    (0, 3, -0.46966772959435e3),
    (1, 0, 0.14399274604723e2),
    (1, 1, -0.19104204230429e2),
    (1, 3, 0.53299167111971e1),
    (1, 4, -0.21252975375934e2),
    (2, 0, -0.31147334413760),
    (2, 1, 0.60334840894623),
    (2, 2, -0.42764839702509e-1),
    (3, 0, 0.58185597255259e-2),
    (3, 1, -0.14597008284753e-1),
    (3, 5, 0.56631175631027e-2),
    (4, 0, -0.76155864584577e-4),
    (4, 1, 0.22440342919332e-3),
    (4, 4, -0.12561095013413e-4),
    (5, 0, 0.63323132660934e-6),
    (5, 1, -0.20541989675375e-5),
    (5, 2, 0.36405370390082e-7),
    (6, 0, -0.29759897789215e-8),
    (6, 1, 0.10136618529763e-7),
    (7, 0, 0.59925719692351e-11),
    (7, 1, -0.20677870105164e-10),
    (7, 3, -0.20874278181886e-10),
    (7, 4, 0.10162166825089e-9),
    (7, 5, -0.16429828281347e-9) ]

/-- `src/r2/region2_T_ps.rs:134-172` ps2T_reg2c -/
def ps2T_reg2c (p : F) (s : F) : F :=
  let pi : F := p / 1.0
  let sigma : F := 2.0 - s / 2.9251
  1.0 * poly_powi pi sigma ps2T_reg2c_IJn

/-- `src/r2/region2_T_ps.rs:174-186` ps2T_reg2 -/
def ps2T_reg2 (p : F) (s : F) : F :=
  let T :=
    if p >. 4.0 then
      if s <. 5.85 then
        ps2T_reg2c p s
      else
        ps2T_reg2b p s
    else
      ps2T_reg2a p s
  T

/-! ### src/r2/region2_p_hs.rs -/

/-- `src/r2/region2_p_hs.rs:13-16` ph2s_reg2 -/
def ph2s_reg2 (p : F) (h : F) : F :=
  let T : F := ph2T_reg2 p h
  pT2s_reg2 p T

/-- `src/r2/region2_p_hs.rs`:20-55 -/
def hs2p_reg2a_IJn : List (Int × Int × F) :=
  [ (0, 1, -0.182575361923032e-1),
    (0, 3, -0.125229548799536),
    (0, 6, 0.592290437320145),
    (0, 16, 0.604769706185122e1),
    (0, 20, 0.238624965444474e3),
    (0, 22, -0.298639090222922e3),
    (1, 0, 0.512250813040750e-1),
    (1, 1, -0.437266515606486),
    (1, 2, 0.413336902999504),
    (1, 3, -0.516468254574773e1),
    (1, 5, -0.557014838445711e1),
    (1, 6, 0.128555037824478e2),
    (1, 10, 0.114144108953290e2),
    (1, 16, -0.119504225652714e3),
    (1, 20, -0.284777985961560e4),
    (1, 22, 0.431757846408006e4),
    (2, 3, 0.112894040802650e1),
    (2, 16, 0.197409186206319e4),
    (2, 20, 0.151612444706087e4),
    (3, 0, 0.141324451421235e-1),
    (3, 2, 0.585501282219601),
    (3, 3, -0.297258075863012e1),
    (3, 6, 0.594567314847319e1),
    (3, 16, -0.623656565798905e4),
    (4, 16, 0.965986235133332e4),
    (5, 3, 0.681500934948134e1),
    (5, 16, -0.633207286824489e4),
    (6, 3, -0.558919224465760e1),
    (7, 1, 0.400645798472063e-1) ]

/-- `src/r2/region2_p_hs.rs:18-62` hs2p_reg2a -/
def hs2p_reg2a (h : F) (s : F) : F :=
  let eta : F := h / 4200.0 - 0.5
  let sigma : F := s / 12.0 - 1.2
  let pi : F := poly_powi eta sigma hs2p_reg2a_IJn
  let pi2 : F := pi * pi
  4.0 * pi2 * pi2

/-- `src/r2/region2_p_hs.rs`:66-106 -/
def hs2p_reg2b_IJn : List (Int × Int × F) :=
  [ (0, 0, 0.801496989929495e-1),
    (0, 1, -0.543862807146111),
    (0, 2, 0.337455597421283),
    (0, 4, 0.890555451157450e1),
    (0, 8, 0.313840736431485e3),
    (1, 0, 0.797367065977789),
    (1, 1, -0.121616973556240e1),
    (1, 2, 0.872803386937477e1),
    (1, 3, -0.169769781757602e2),
    (1, 5, -0.186552827328416e3),
    (1, 12, 0.951159274344237e5),
    (2, 1, -0.189168510120494e2),
    (2, 6, -0.433407037194840e4),
    (2, 18, 0.543212633012715e9),
    (3, 0, 0.144793408386013),
    (3, 1, 0.128024559637516e3),
    (3, 7, -0.672309534071268e5),
    (3, 12, 0.336972380095287e8),
    (4, 1, -0.586634196762720e3),
    (4, 16, -0.221403224769889e11),
    (5, 1, 0.171606668708389e4),
    (5, 12, -0.570817595806302e9),
    (6, 1, -0.312109693178482e4),
    (6, 8, -0.207841384633010e7),
    (6, 18, 0.305605946157786e13),
    (7, 1, 0.322157004314333e4),
    (7, 16, 0.326810259797295e12),
    (8, 1, -0.144104158934487e4),
    (8, 3, 0.410694867802691e3),
    (8, 14, 0.109077066873024e12),
    (8, 18, -0.247964654258893e14),
    (12, 10, 0.188801906865134e10),
    (14, 16, -0.123651009018773e15) ]

/-- `src/r2/region2_p_hs.rs:64-112` hs2p_reg2b -/
def hs2p_reg2b (h : F) (s : F) : F :=
  let eta : F := h / 4100.0 - 0.6
  let sigma : F := s / 7.9 - 1.01
  let pi : F := poly_powi eta sigma hs2p_reg2b_IJn
  let pi2 : F := pi * pi
  100.0 * pi2 * pi2

/-- `src/r2/region2_p_hs.rs`:116-154 -/
def hs2p_reg2c_IJn : List (Int × Int × F) :=
  [ (0, 0, 0.112225607199012e0),
    (0, 1, -0.339005953606712e1),
    (0, 2, -0.320503911730094e2),
    (0, 3, -0.197597305104900e3),
    (0, 4, -0.407693861553446e3),
    (0, 8, 0.132943775222331e5),
    (1, 0, 0.170846839774007e1),
    (1, 2, 0.373694198142245e2),
    (1, 5, 0.358144365815434e4),
    (1, 8, 0.423014446424664e6),
    (1, 14, -0.751071025760063e9),
    (2, 2, 0.523446127607898e2),
    (2, 3, -0.228351290812417e3),
    (2, 7, -0.960652417056937e6),
    (2, 10, -0.807059292526074e8),
    (2, 18, 0.162698017225669e13),
    (3, 0, 0.772465073604171),
    (3, 5, 0.463929973837746e5),
    (3, 8, -0.137317885134128e8),
    (3, 16, 0.170470392630512e13),
    (3, 18, -0.251104628187308e14),
    (4, 18, 0.317748830835520e14),
    (5, 1, 0.538685623675312e2),
    (5, 4, -0.553089094625169e5),
    (5, 6, -0.102861522421405e7),
    (5, 14, 0.204249418756234e13),
    (6, 8, 0.273918446626977e9),
    (6, 18, -0.263963146312685e16),
    (10, 7, -0.107890854108088e10),
    (12, 7, -0.296492620980124e11),
    (16, 10, -0.111754907323424e16) ]

/-- `src/r2/region2_p_hs.rs:114-161` hs2p_reg2c -/
def hs2p_reg2c (h : F) (s : F) : F :=
  let eta : F := h / 3500.0 - 0.7
  let sigma : F := s / 5.9 - 1.1
  let pi : F := poly_powi eta sigma hs2p_reg2c_IJn
  let pi2 : F := pi * pi
  100.0 * pi2 * pi2

/-- `src/r2/region2_p_hs.rs` -/
def s2h_reg2_ab_n : List F := [-0.349898083432139e4, 0.257560716905876e4, -0.421073558227969e3, 0.276349063799944e2]

/-- `src/r2/region2_p_hs.rs:169-174` s2h_reg2_ab -/
def s2h_reg2_ab (s : F) : F :=
  let sigma : F := s / 1.0
  let eta : F := nthF s2h_reg2_ab_n 0 + sigma * (nthF s2h_reg2_ab_n 1 + sigma * (nthF s2h_reg2_ab_n 2 + nthF s2h_reg2_ab_n 3 * sigma))
  eta * 1.0

/-- `src/r2/region2_p_hs.rs:176-189` hs2p_reg2 -/
def hs2p_reg2 (h : F) (s : F) : F :=
  let h2ab : F := s2h_reg2_ab s
  let p :=
    if h >. h2ab then
      if s >=. 5.85 then
        hs2p_reg2b h s
      else
        hs2p_reg2c h s
    else
      hs2p_reg2a h s
  p

end If97
