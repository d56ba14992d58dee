/-
Generated by tools/rs2lean.py from the Rust sources cited below.
Number type `F` is abstract; see Verif/Model/Num.lean for the conventions.
-/
import Verif.Model.Bound
import Verif.Model.Sat
set_option linter.unusedVariables false

namespace If97
open Flt
variable {F : Type} [Add F] [Sub F] [Mul F] [Div F] [Neg F] [OfScientific F] [Flt F]

/-! ### src/r3/region3_hfe.rs -/

/-- `src/r3/region3_hfe.rs`:10 -/
def n1 : F := 0.10658070028513e1

/-- `src/r3/region3_hfe.rs`:12-52 -/
def r3_IJn : List (Int × Int × F) :=
  [ (0, 0, -0.15732845290239e2),
    (0, 1, 0.20944396974307e2),
    (0, 2, -0.76867707878716e1),
    (0, 7, 0.26185947787954e1),
    (0, 10, -0.28080781148620e1),
    (0, 12, 0.12053369696517e1),
    (0, 23, -0.84566812812502e-2),
    (1, 2, -0.12654315477714e1),
    (1, 6, -0.11524407806681e1),
    (1, 15, 0.88521043984318e0),
    (1, 17, -0.64207765181607e0),
    (2, 0, 0.38493460186671e0),
    (2, 2, -0.85214708824206e0),
    (2, 6, 0.48972281541877e1),
    (2, 7, -0.30502617256965e1),
    (2, 22, 0.39420536879154e-1),
    (2, 26, 0.12558408424308e0),
    (3, 0, -0.27999329698710e0),
    (3, 2, 0.13899799569460e1),
    (3, 4, -0.20189915023570e1),
    (3, 16, -0.82147637173963e-2),
    (3, 26, -0.47596035734923e0),
    (4, 0, 0.43984074473500e-1),
    (4, 2, -0.44476435428739e0),
    (4, 4, 0.90572070719733e0),
    (4, 26, 0.70522450087967e0),
    (5, 1, 0.10770512626332e0),
    (5, 3, -0.32913623258954e0),
    (5, 26, -0.50871062041158e0),
    (6, 0, -0.22175400873096e-1),
    (6, 2, 0.94260751665092e-1),
    (6, 26, 0.16436278447961e0),
    (7, 2, -0.13503372241348e-1),
    (8, 26, -0.14834345352472e-1),
    (9, 2, 0.57922953628084e-3),
    (9, 26, 0.32308904703711e-2),
    (10, 0, 0.80964802996215e-4),
    (10, 1, -0.16557679795037e-3),
    (11, 26, -0.44923899061815e-4) ]

/-- `src/r3/region3_hfe.rs` -/
def phi_reg3_steps : List (Nat × Nat) := [(0, 19), (19, 39)]

/-- `src/r3/region3_hfe.rs:55-59` phi_reg3 -/
def phi_reg3 (delta : F) (tau : F) : F :=
  let result : F := n1 * fln delta
  result + poly_powi_steps delta tau r3_IJn phi_reg3_steps

/-- `src/r3/region3_hfe.rs` -/
def phi_delta_reg3_steps : List (Nat × Nat) := [(0, 13), (13, 23), (23, 33), (33, 39)]

/-- `src/r3/region3_hfe.rs:62-66` phi_delta_reg3 -/
def phi_delta_reg3 (delta : F) (tau : F) : F :=
  let result : F := n1 / delta
  result + poly_i_powi_steps delta tau r3_IJn phi_delta_reg3_steps

/-- `src/r3/region3_hfe.rs` -/
def phi_deltadelta_reg3_steps : List (Nat × Nat) := [(0, 13), (13, 23), (23, 33), (33, 39)]

/-- `src/r3/region3_hfe.rs:69-73` phi_deltadelta_reg3 -/
def phi_deltadelta_reg3 (delta : F) (tau : F) : F :=
  let result : F := -n1 / delta / delta
  result + poly_ii_powi_steps delta tau r3_IJn phi_deltadelta_reg3_steps

/-- `src/r3/region3_hfe.rs` -/
def phi_tau_reg3_steps : List (Nat × Nat) := [(0, 13), (13, 23), (23, 33), (33, 39)]

/-- `src/r3/region3_hfe.rs:76-80` phi_tau_reg3 -/
def phi_tau_reg3 (delta : F) (tau : F) : F :=
  poly_j_powi_steps delta tau r3_IJn phi_tau_reg3_steps

/-- `src/r3/region3_hfe.rs` -/
def phi_tautau_reg3_steps : List (Nat × Nat) := [(0, 13), (13, 23), (23, 33), (33, 39)]

/-- `src/r3/region3_hfe.rs:83-87` phi_tautau_reg3 -/
def phi_tautau_reg3 (delta : F) (tau : F) : F :=
  poly_jj_powi_steps delta tau r3_IJn phi_tautau_reg3_steps

/-- `src/r3/region3_hfe.rs` -/
def phi_deltatau_reg3_steps : List (Nat × Nat) := [(0, 17), (17, 34), (34, 39)]

/-- `src/r3/region3_hfe.rs:90-94` phi_deltatau_reg3 -/
def phi_deltatau_reg3 (delta : F) (tau : F) : F :=
  poly_ij_powi_steps delta tau r3_IJn phi_deltatau_reg3_steps

/-- `src/r3/region3_hfe.rs` -/
def polys_0_j_powi_reg3_steps : List (Nat × Nat) := [(0, 16), (16, 32), (32, 39)]

/-- `src/r3/region3_hfe.rs:97-101` polys_0_j_powi_reg3 -/
def polys_0_j_powi_reg3 (delta : F) (tau : F) : (F × F) :=
  let (poly_phi, poly_tau) := polys_0_j_powi_steps delta tau r3_IJn polys_0_j_powi_reg3_steps
  (poly_phi + n1 * fln delta, poly_tau)

/-- `src/r3/region3_hfe.rs` -/
def polys_i_j_powi_reg3_steps : List (Nat × Nat) := [(0, 16), (16, 32), (32, 39)]

/-- `src/r3/region3_hfe.rs:103-107` polys_i_j_powi_reg3 -/
def polys_i_j_powi_reg3 (delta : F) (tau : F) : (F × F) :=
  let (poly_delta, poly_tau) := polys_i_j_powi_steps delta tau r3_IJn polys_i_j_powi_reg3_steps
  (poly_delta + n1 / delta, poly_tau)

/-- `src/r3/region3_hfe.rs` -/
def polys_i_ii_ij_jj_powi_reg3_steps : List (Nat × Nat) := [(0, 10), (10, 20), (20, 30), (30, 39)]

/-- `src/r3/region3_hfe.rs:111-121` polys_i_ii_ij_jj_powi_reg3 -/
def polys_i_ii_ij_jj_powi_reg3 (delta : F) (tau : F) : (F × F × F × F) :=
  let phi_delta : F := n1 / delta
  let phi_deltadelta : F := -n1 / delta / delta
  let (sub_phi_delta, sub_phi_deltadelta, phi_deltatau, phi_tautau) := polys_i_ii_ij_jj_powi_steps delta tau r3_IJn polys_i_ii_ij_jj_powi_reg3_steps
  let phi_delta := phi_delta + sub_phi_delta
  let phi_deltadelta := phi_deltadelta + sub_phi_deltadelta
  (phi_delta, phi_deltadelta, phi_deltatau, phi_tautau)

/-! ### src/r3/region3_Td.rs -/

/-- `src/r3/region3_Td.rs:17-22` Td2p_reg3 -/
def Td2p_reg3 (T : F) (d : F) : F :=
  let tau : F := TC_WATER / T
  let delta : F := d / DC_WATER
  let phi_delta : F := phi_delta_reg3 delta tau
  0.001 * d * RGAS_WATER * T * delta * phi_delta

/-- `src/r3/region3_Td.rs:25-29` Td2u_reg3 -/
def Td2u_reg3 (T : F) (d : F) : F :=
  let tau : F := TC_WATER / T
  let delta : F := d / DC_WATER
  RGAS_WATER * T * tau * phi_tau_reg3 delta tau

/-- `src/r3/region3_Td.rs:32-37` Td2s_reg3 -/
def Td2s_reg3 (T : F) (d : F) : F :=
  let tau : F := TC_WATER / T
  let delta : F := d / DC_WATER
  let (poly_phi, poly_tau) := polys_0_j_powi_reg3 delta tau
  RGAS_WATER * (tau * poly_tau - poly_phi)

/-- `src/r3/region3_Td.rs:40-45` Td2h_reg3 -/
def Td2h_reg3 (T : F) (d : F) : F :=
  let tau : F := TC_WATER / T
  let delta : F := d / DC_WATER
  let (poly_delta, poly_tau) := polys_i_j_powi_reg3 delta tau
  RGAS_WATER * T * (tau * poly_tau + delta * poly_delta)

/-- `src/r3/region3_Td.rs:48-57` Td2cp_reg3 -/
def Td2cp_reg3 (T : F) (d : F) : F :=
  let tau : F := TC_WATER / T
  let delta : F := d / DC_WATER
  let (phi_delta, phi_deltadelta, phi_deltatau, phi_tautau) := polys_i_ii_ij_jj_powi_reg3 delta tau
  let a : F := delta * (phi_delta - tau * phi_deltatau)
  let a := a * a
  let b : F := delta * (2.0 * phi_delta + delta * phi_deltadelta)
  RGAS_WATER * (-tau * tau * phi_tautau + a / b)

/-- `src/r3/region3_Td.rs:60-64` Td2cv_reg3 -/
def Td2cv_reg3 (T : F) (d : F) : F :=
  let tau : F := TC_WATER / T
  let delta : F := d / DC_WATER
  RGAS_WATER * (-tau * tau * phi_tautau_reg3 delta tau)

/-- `src/r3/region3_Td.rs:67-79` Td2w_reg3 -/
def Td2w_reg3 (T : F) (d : F) : F :=
  let tau : F := TC_WATER / T
  let delta : F := d / DC_WATER
  let (phi_delta, phi_deltadelta, phi_deltatau, phi_tautau) := polys_i_ii_ij_jj_powi_reg3 delta tau
  let a : F := delta * phi_delta - delta * tau * phi_deltatau
  let a := a * a
  let temp : F := 1000.0 * RGAS_WATER * T * (2.0 * delta * phi_delta + delta * delta * phi_deltadelta - a / (tau * tau * phi_tautau))
  fsqrt temp

/-! ### src/r3/region3_Td_ext.rs -/

/-- `src/r3/region3_Td_ext.rs:36-42` Td2g_reg3 -/
def Td2g_reg3 (T : F) (d : F) : F :=
  let tau : F := TC_WATER / T
  let delta : F := d / DC_WATER
  let phi : F := phi_reg3 delta tau
  let phidelta : F := phi_delta_reg3 delta tau
  RGAS_WATER * T * (phi + delta * phidelta)

/-- `src/r3/region3_Td_ext.rs:45-49` Td2f_reg3 -/
def Td2f_reg3 (T : F) (d : F) : F :=
  let tau : F := TC_WATER / T
  let delta : F := d / DC_WATER
  RGAS_WATER * T * phi_reg3 delta tau

/-- `src/r3/region3_Td_ext.rs:52-58` Td2dvdpct_reg3 -/
def Td2dvdpct_reg3 (T : F) (d : F) : F :=
  let tau : F := TC_WATER / T
  let delta : F := d / DC_WATER
  let ddeltadpi : F := 2.0 * phi_delta_reg3 delta tau + delta * phi_deltadelta_reg3 delta tau
  let ddeltadpi := d * RGAS_WATER * T * ddeltadpi
  (-1000.0 * DC_WATER / d / d / ddeltadpi)

/-- `src/r3/region3_Td_ext.rs:61-63` Td2kt_reg3 -/
def Td2kt_reg3 (T : F) (d : F) : F :=
  (-d * Td2dvdpct_reg3 T d)

/-- `src/r3/region3_Td_ext.rs:66-73` Td2dvdtcp_reg3 -/
def Td2dvdtcp_reg3 (T : F) (d : F) : F :=
  let tau : F := TC_WATER / T
  let delta : F := d / DC_WATER
  let ddelta : F := phi_delta_reg3 delta tau
  let d1 : F := ddelta - tau * phi_deltatau_reg3 delta tau
  let d2 : F := 2.0 * ddelta + delta * phi_deltadelta_reg3 delta tau
  d1 / d2 / T / d

/-- `src/r3/region3_Td_ext.rs:76-78` Td2ec_reg3 -/
def Td2ec_reg3 (T : F) (d : F) : F :=
  d * Td2dvdtcp_reg3 T d

/-- `src/r3/region3_Td_ext.rs:82-99` Td2joule_reg3 -/
def Td2joule_reg3 (T : F) (d : F) : F :=
  let tau : F := TC_WATER / T
  let delta : F := d / DC_WATER
  let v : F := 1.0 / d
  let ddelta : F := phi_delta_reg3 delta tau
  let ddeltatau : F := phi_deltatau_reg3 delta tau
  let ddeltadelta : F := phi_deltadelta_reg3 delta tau
  let cp1 : F := delta * (ddelta - tau * ddeltatau)
  let cp1 := cp1 * cp1
  let cp2 : F := delta * (2.0 * ddelta + delta * ddeltadelta)
  let cp : F := RGAS_WATER * (-1.0 * tau * tau * phi_tautau_reg3 delta tau + cp1 / cp2)
  let d1 : F := ddelta - tau * ddeltatau
  let d2 : F := 2.0 * ddelta + delta * ddeltadelta
  let cex : F := d1 / d2 / T
  1000.0 * (v / cp) * (T * cex - 1.0)

/-- `src/r3/region3_Td_ext.rs:104-106` Td2iJTC_reg3 -/
def Td2iJTC_reg3 (T : F) (d : F) : F :=
  (-Td2cp_reg3 T d * Td2joule_reg3 T d / 1000.0)

/-- `src/r3/region3_Td_ext.rs:109-113` Td2dpdtcv_reg3 -/
def Td2dpdtcv_reg3 (T : F) (d : F) : F :=
  let tau : F := TC_WATER / T
  let delta : F := d / DC_WATER
  0.001 * RGAS_WATER * d * delta * (phi_delta_reg3 delta tau - tau * phi_deltatau_reg3 delta tau)

/-- `src/r3/region3_Td_ext.rs:117-120` Td2pc_reg3 -/
def Td2pc_reg3 (T : F) (d : F) : F :=
  let p : F := Td2p_reg3 T d
  1.0 / p * Td2dpdtcv_reg3 T d

/-- `src/r3/region3_Td_ext.rs:123-130` Td2e_reg3 -/
def Td2e_reg3 (T : F) (d : F) : F :=
  let tau : F := TC_WATER / T
  let delta : F := d / DC_WATER
  let phi : F := phi_reg3 delta tau
  let phidelta : F := phi_delta_reg3 delta tau
  let phitau : F := phi_tau_reg3 delta tau
  RGAS_WATER * (T * (phi + delta * phidelta) + (T - Tt) * tau * (phitau - phi))

/-- `src/r3/region3_Td_ext.rs:133-137` Td2z_reg3 -/
def Td2z_reg3 (T : F) (d : F) : F :=
  let v : F := 1.0 / d
  let p : F := Td2p_reg3 T d
  1000.0 * p * v / RGAS_WATER / T

/-- `src/r3/region3_Td_ext.rs:141-145` Td2ks_reg3 -/
def Td2ks_reg3 (T : F) (d : F) : F :=
  let w : F := Td2w_reg3 T d
  let p : F := Td2p_reg3 T d
  1.0e-6 * w * w * d / p

/-- `src/r3/region3_Td_ext.rs:152-156` Td2batap_reg3 -/
def Td2batap_reg3 (T : F) (d : F) : F :=
  let kt : F := Td2kt_reg3 T d
  let p : F := Td2p_reg3 T d
  d / (p * kt)

/-- `src/r3/region3_Td_ext.rs:160-163` Td2fi_reg3 -/
def Td2fi_reg3 (T : F) (d : F) : F :=
  let g : F := Td2g_reg3 T d
  fexp (g / RGAS_WATER / T)

/-- `src/r3/region3_Td_ext.rs:167-171` Td2fu_reg3 -/
def Td2fu_reg3 (T : F) (d : F) : F :=
  let fi : F := Td2fi_reg3 T d
  let p : F := Td2p_reg3 T d
  p * fi

/-- `src/r3/region3_Td_ext.rs:175-180` Td2alfap_reg3 -/
def Td2alfap_reg3 (T : F) (d : F) : F :=
  let p : F := Td2p_reg3 T d
  let ec : F := Td2ec_reg3 T d
  let kt : F := Td2kt_reg3 T d
  ec / p / kt

/-- `src/r3/region3_Td_ext.rs:11-32` Td_ext_reg3 -/
def Td_ext_reg3 (T : F) (d : F) (o_id : Int) : F :=
  if o_id == OF then
    Td2f_reg3 T d
  else if o_id == OG then
    Td2g_reg3 T d
  else if o_id == OZ then
    Td2z_reg3 T d
  else if o_id == OKS then
    Td2ks_reg3 T d
  else if o_id == OKT then
    Td2kt_reg3 T d
  else if o_id == OEC then
    Td2ec_reg3 T d
  else if o_id == OJTC then
    Td2joule_reg3 T d
  else if o_id == OIJTC then
    Td2iJTC_reg3 T d
  else if o_id == OPC then
    Td2pc_reg3 T d
  else if o_id == ODVDP then
    Td2dvdpct_reg3 T d
  else if o_id == ODPDT then
    Td2dpdtcv_reg3 T d
  else if o_id == ODVDT then
    Td2dvdtcp_reg3 T d
  else if o_id == OE then
    Td2e_reg3 T d
  else if o_id == OBETAP then
    Td2batap_reg3 T d
  else if o_id == OFI then
    Td2fi_reg3 T d
  else if o_id == OFU then
    Td2fu_reg3 T d
  else if o_id == OALFAP then
    Td2alfap_reg3 T d
  else
    ofI32 INVALID_OUTID

/-! ### src/r3/region3_Tv_phps.rs -/

/-- `src/r3/region3_Tv_phps.rs`:12 -/
def p2h_3ab_n : List F := [0.201464004206875e4, 0.374696550136983e1, -0.219921901054187e-1, 0.875131686009950e-4]

/-- `src/r3/region3_Tv_phps.rs:9-16` p2h_3ab -/
def p2h_3ab (p : F) : F :=
  let pi : F := p / 1.0
  let eta : F := nthF p2h_3ab_n 0 + pi * (nthF p2h_3ab_n 1 + pi * (nthF p2h_3ab_n 2 + nthF p2h_3ab_n 3 * pi))
  eta * 1.0

/-- `src/r3/region3_Tv_phps.rs`:21-53 -/
def ph2T_3a_reg3_IJn : List (Int × Int × F) :=
  [ (-12, 0, -1.33645667811215e-7),
    (-12, 1, 4.55912656802978e-6),
    (-12, 2, -1.46294640700979e-5),
    (-12, 6, 6.39341312970080e-3),
    (-12, 14, 3.72783927268847e2),
    (-12, 16, -7.18654377460447e3),
    (-12, 20, 5.73494752103400e5),
    (-12, 22, -2.67569329111439e6),
    (-10, 1, -3.34066283302614e-5),
    (-10, 5, -2.45479214069597e-2),
    (-10, 12, 4.78087847764996e1),
    (-8, 0, 7.64664131818904e-6),
    (-8, 2, 1.28350627676972e-3),
    (-8, 4, 1.71219081377331e-2),
    (-8, 10, -8.51007304583213),
    (-5, 2, -1.36513461629781e-2),
    (-3, 0, -3.84460997596657e-6),
    (-2, 1, 3.37423807911655e-3),
    (-2, 3, -5.51624873066791e-1),
    (-2, 4, 7.29202277107470e-1),
    (-1, 0, -9.92522757376041e-3),
    (-1, 2, -1.19308831407288e-1),
    (0, 0, 7.93929190615421e-1),
    (0, 1, 4.54270731799386e-1),
    (1, 1, 2.09998591259910e-1),
    (3, 0, -6.42109823904738e-3),
    (3, 1, -2.35155868604540e-2),
    (4, 0, 2.52233108341612e-3),
    (4, 3, -7.64885133368119e-3),
    (10, 4, 1.36176427574291e-2),
    (12, 5, -1.33027883575669e-2) ]

/-- `src/r3/region3_Tv_phps.rs:19-58` ph2T_3a_reg3 -/
def ph2T_3a_reg3 (p : F) (h : F) : F :=
  let pi : F := p / 100.0 + 0.240
  let eta : F := h / 2300.0 - 0.615
  760.0 * poly_powi pi eta ph2T_3a_reg3_IJn

/-- `src/r3/region3_Tv_phps.rs`:63-97 -/
def ph2T_3b_reg3_IJn : List (Int × Int × F) :=
  [ (-12, 0, 3.23254573644920e-5),
    (-12, 1, -1.27575556587181e-4),
    (-10, 0, -4.75851877356068e-4),
    (-10, 1, 1.56183014181602e-3),
    (-10, 5, 1.05724860113781e-1),
    (-10, 10, -8.58514221132534e1),
    (-10, 12, 7.24140095480911e2),
    (-8, 0, 2.96475810273257e-3),
    (-8, 1, -5.92721983365988e-3),
    (-8, 2, -1.26305422818666e-2),
    (-8, 4, -1.15716196364853e-1),
    (-8, 10, 8.49000969739595e1),
    (-6, 0, -1.08602260086615e-2),
    (-6, 1, 1.54304475328851e-2),
    (-6, 2, 7.50455441524466e-2),
    (-4, 0, 2.52520973612982e-2),
    (-4, 1, -6.02507901232996e-2),
    (-3, 5, -3.07622221350501),
    (-2, 0, -5.74011959864879e-2),
    (-2, 4, 5.03471360939849),
    (-1, 2, -9.25081888584834e-1),
    (-1, 4, 3.91733882917546),
    (-1, 6, -7.73146007130190e1),
    (-1, 10, 9.49308762098587e3),
    (-1, 14, -1.41043719679409e6),
    (-1, 16, 8.49166230819026e6),
    (0, 0, 8.61095729446704e-1),
    (0, 2, 3.23346442811720e-1),
    (1, 1, 8.73281936020439e-1),
    (3, 1, -4.36653048526683e-1),
    (5, 1, 2.86596714529479e-1),
    (6, 1, -1.31778331276228e-1),
    (8, 1, 6.76682064330275e-3) ]

/-- `src/r3/region3_Tv_phps.rs:61-102` ph2T_3b_reg3 -/
def ph2T_3b_reg3 (p : F) (h : F) : F :=
  let pi : F := p / 100.0 + 0.298
  let eta : F := h / 2800.0 - 0.720
  860.0 * poly_powi pi eta ph2T_3b_reg3_IJn

/-- `src/r3/region3_Tv_phps.rs`:107-140 -/
def ph2v_3a_reg3_IJn : List (Int × Int × F) :=
  [ (-12, 6, 5.29944062966028e-3),
    (-12, 8, -1.70099690234461e-1),
    (-12, 12, 1.11323814312927e1),
    (-12, 18, -2.17898123145125e3),
    (-10, 4, -5.06061827980875e-4),
    (-10, 7, 5.56495239685324e-1),
    (-10, 10, -9.43672726094016),
    (-8, 5, -2.97856807561527e-1),
    (-8, 12, 9.39353943717186e1),
    (-6, 3, 1.92944939465981e-2),
    (-6, 4, 4.21740664704763e-1),
    (-6, 22, -3.68914126282330e6),
    (-4, 2, -7.37566847600639e-3),
    (-4, 3, -3.54753242424366e-1),
    (-3, 7, -1.99768169338727),
    (-2, 3, 1.15456297059049),
    (-2, 16, 5.68366875815960e3),
    (-1, 0, 8.08169540124668e-3),
    (-1, 1, 1.72416341519307e-1),
    (-1, 2, 1.04270175292927),
    (-1, 3, -2.97691372792847e-1),
    (0, 0, 5.60394465163593e-1),
    (0, 1, 2.75234661176914e-1),
    (1, 0, -1.48347894866012e-1),
    (1, 1, -6.51142513478515e-2),
    (1, 2, -2.92468715386302),
    (2, 0, 6.64876096952665e-2),
    (2, 2, 3.52335014263844),
    (3, 0, -1.46340792313332e-2),
    (4, 2, -2.24503486668184),
    (5, 2, 1.10533464706142),
    (8, 2, -4.08757344495612e-2) ]

/-- `src/r3/region3_Tv_phps.rs:105-145` ph2v_3a_reg3 -/
def ph2v_3a_reg3 (p : F) (h : F) : F :=
  let pi : F := p / 100.0 + 0.128
  let eta : F := h / 2100.0 - 0.727
  0.0028 * poly_powi pi eta ph2v_3a_reg3_IJn

/-- `src/r3/region3_Tv_phps.rs`:150-181 -/
def ph2v_3b_reg3_IJn : List (Int × Int × F) :=
  [ (-12, 0, -2.25196934336318e-9),
    (-12, 1, 1.40674363313486e-8),
    (-8, 0, 2.33784085280560e-6),
    (-8, 1, -3.31833715229001e-5),
    (-8, 3, 1.07956778514318e-3),
    (-8, 6, -2.71382067378863e-1),
    (-8, 7, 1.07202262490333),
    (-8, 8, -8.53821329075382e-1),
    (-6, 0, -2.15214194340526e-5),
    (-6, 1, 7.69656088222730e-4),
    (-6, 2, -4.31136580433864e-3),
    (-6, 5, 4.53342167309331e-1),
    (-6, 6, -5.07749535873652e-1),
    (-6, 10, -1.00475154528389e2),
    (-4, 3, -2.19201924648793e-1),
    (-4, 6, -3.21087965668917),
    (-4, 10, 6.07567815637771e2),
    (-3, 0, 5.57686450685932e-4),
    (-3, 2, 1.87499040029550e-1),
    (-2, 1, 9.05368030448107e-3),
    (-2, 2, 2.85417173048685e-1),
    (-1, 0, 3.29924030996098e-2),
    (-1, 1, 2.39897419685483e-1),
    (-1, 4, 4.82754995951394),
    (-1, 5, -1.18035753702231e1),
    (0, 0, 1.69490044091791e-1),
    (1, 0, -1.79967222507787e-2),
    (1, 1, 3.71810116332674e-2),
    (2, 2, -5.36288335065096e-2),
    (2, 6, 1.60697101092520) ]

/-- `src/r3/region3_Tv_phps.rs:148-186` ph2v_3b_reg3 -/
def ph2v_3b_reg3 (p : F) (h : F) : F :=
  let pi : F := p / 100.0 + 0.0661
  let eta : F := h / 2800.0 - 0.720
  0.0088 * poly_powi pi eta ph2v_3b_reg3_IJn

/-- `src/r3/region3_Tv_phps.rs:189-196` ph2T_reg3 -/
def ph2T_reg3 (p : F) (h : F) : F :=
  let h3ab : F := p2h_3ab p
  if h <=. h3ab then
    ph2T_3a_reg3 p h
  else
    ph2T_3b_reg3 p h

/-- `src/r3/region3_Tv_phps.rs:198-205` ph2v_reg3 -/
def ph2v_reg3 (p : F) (h : F) : F :=
  let h3ab : F := p2h_3ab p
  if h <=. h3ab then
    ph2v_3a_reg3 p h
  else
    ph2v_3b_reg3 p h

/-- `src/r3/region3_Tv_phps.rs`:209-243 -/
def ps2T_3a_reg3_IJn : List (Int × Int × F) :=
  [ (-12, 28, 0.150042008263875e10),
    (-12, 32, -0.159397258480424e12),
    (-10, 4, 0.502181140217975e-3),
    (-10, 10, -0.672057767855466e2),
    (-10, 12, 0.145058545404456e4),
    (-10, 14, -0.823889534888890e4),
    (-8, 5, -0.154852214233853e0),
    (-8, 7, 0.112305046746695e2),
    (-8, 8, -0.297000213482822e2),
    (-8, 28, 0.438565132635495e11),
    (-6, 2, 0.137837838635464e-2),
    (-6, 6, -0.297478527157462e1),
    (-6, 32, 0.971777947349413e13),
    (-5, 0, -0.571527767052398e-4),
    (-5, 14, 0.288307949778420e5),
    (-5, 32, -0.744428289262703e14),
    (-4, 6, 0.128017324848921e2),
    (-4, 10, -0.368275545889071e3),
    (-4, 36, 0.664768904779177e16),
    (-2, 1, 0.449359251958880e-1),
    (-2, 4, -0.422897836099655e1),
    (-1, 1, -0.240614376434179e0),
    (-1, 6, -0.474341365254924e1),
    (0, 0, 0.724093999126110e0),
    (0, 1, 0.923874349695897e0),
    (0, 4, 0.399043655281015e1),
    (1, 0, 0.384066651868009e-1),
    (2, 0, -0.359344365571848e-2),
    (2, 3, -0.735196448821653e0),
    (3, 2, 0.188367048396131e0),
    (8, 0, 0.141064266818704e-3),
    (8, 1, -0.257418501496337e-2),
    (10, 2, 0.123220024851555e-2) ]

/-- `src/r3/region3_Tv_phps.rs:208-247` ps2T_3a_reg3 -/
def ps2T_3a_reg3 (p : F) (s : F) : F :=
  let pi : F := p / 100.0 + 0.240
  let sigma : F := s / 4.4 - 0.703
  760.0 * poly_powi pi sigma ps2T_3a_reg3_IJn

/-- `src/r3/region3_Tv_phps.rs`:251-280 -/
def ps2T_3b_reg3_IJn : List (Int × Int × F) :=
  [ (-12, 1, 0.527111701601660e0),
    (-12, 3, -0.401317830052742e2),
    (-12, 4, 0.153020073134484e3),
    (-12, 7, -0.224799398218827e4),
    (-8, 0, -0.193993484669048e0),
    (-8, 1, -0.140467557893768e1),
    (-8, 3, 0.426799878114024e2),
    (-6, 0, 0.752810643416743e0),
    (-6, 2, 0.226657238616417e2),
    (-6, 4, -0.622873556909932e3),
    (-5, 0, -0.660823667935396e0),
    (-5, 1, 0.841267087271658e0),
    (-5, 2, -0.253717501764397e2),
    (-5, 4, 0.485708963532948e3),
    (-5, 6, 0.880531517490555e3),
    (-4, 12, 0.265015592794626e7),
    (-3, 1, -0.359287150025783e0),
    (-3, 6, -0.656991567673753e3),
    (-2, 2, 0.241768149185367e1),
    (0, 0, 0.856873461222588e0),
    (2, 1, 0.655143675313458e0),
    (3, 1, -0.213535213206406e0),
    (4, 0, 0.562974957606348e-2),
    (5, 24, -0.316955725450471e15),
    (6, 0, -0.699997000152457e-3),
    (8, 3, 0.119845803210767e-1),
    (12, 1, 0.193848122022095e-4),
    (14, 2, -0.215095749182309e-4) ]

/-- `src/r3/region3_Tv_phps.rs:250-285` ps2T_3b_reg3 -/
def ps2T_3b_reg3 (p : F) (s : F) : F :=
  let pi : F := p / 100.0 + 0.760
  let sigma : F := s / 5.3 - 0.818
  860.0 * poly_powi pi sigma ps2T_3b_reg3_IJn

/-- `src/r3/region3_Tv_phps.rs`:289-318 -/
def ps2v_3a_reg3_IJn : List (Int × Int × F) :=
  [ (-12, 10, 0.795544074093975e2),
    (-12, 12, -0.238261242984590e4),
    (-12, 14, 0.176813100617787e5),
    (-10, 4, -0.110524727080379e-2),
    (-10, 8, -0.153213833655326e2),
    (-10, 10, 0.297544599376982e3),
    (-10, 20, -0.350315206871242e8),
    (-8, 5, 0.277513761062119),
    (-8, 6, -0.523964271036888),
    (-8, 14, -0.148011182995403e6),
    (-8, 16, 0.160014899374266e7),
    (-6, 28, 0.170802322663427e13),
    (-5, 1, 0.246866996006494e-3),
    (-4, 5, 0.165326084797980e1),
    (-3, 2, -0.118008384666987),
    (-3, 4, 0.253798642355900e1),
    (-2, 3, 0.965127704669424),
    (-2, 8, -0.282172420532826e2),
    (-1, 1, 0.203224612353823),
    (-1, 2, 0.110648186063513e1),
    (0, 0, 0.526127948451280),
    (0, 1, 0.277000018736321),
    (0, 3, 0.108153340501132e1),
    (1, 0, -0.744127885357893e-1),
    (2, 0, 0.164094443541384e-1),
    (4, 2, -0.680468275301065e-1),
    (5, 2, 0.257988576101640e-1),
    (6, 0, -0.145749861944416e-3) ]

/-- `src/r3/region3_Tv_phps.rs:288-323` ps2v_3a_reg3 -/
def ps2v_3a_reg3 (p : F) (s : F) : F :=
  let pi : F := p / 100.0 + 0.187
  let sigma : F := s / 4.4 - 0.755
  0.0028 * poly_powi pi sigma ps2v_3a_reg3_IJn

/-- `src/r3/region3_Tv_phps.rs`:327-359 -/
def ps2v_3b_reg3_IJn : List (Int × Int × F) :=
  [ (-12, 0, 0.591599780322238e-4),
    (-12, 1, -0.185465997137856e-2),
    (-12, 2, 0.104190510480013e-1),
    (-12, 3, 0.598647302038590e-2),
    (-12, 5, -0.771391189901699),
    (-12, 6, 0.172549765557036e1),
    (-10, 0, -0.467076079846526e-3),
    (-10, 1, 0.134533823384439e-1),
    (-10, 2, -0.808094336805495e-1),
    (-10, 4, 0.508139374365767),
    (-8, 0, 0.128584643361683e-2),
    (-5, 1, -0.163899353915435e1),
    (-5, 2, 0.586938199318063e1),
    (-5, 3, -0.292466667918613e1),
    (-4, 0, -0.614076301499537e-2),
    (-4, 1, 0.576199014049172e1),
    (-4, 2, -0.121613320606788e2),
    (-4, 3, 0.167637540957944e1),
    (-3, 1, -0.744135838773463e1),
    (-2, 0, 0.378168091437659e-1),
    (-2, 1, 0.401432203027688e1),
    (-2, 2, 0.160279837479185e2),
    (-2, 3, 0.317848779347728e1),
    (-2, 4, -0.358362310304853e1),
    (-2, 12, -0.115995260446827e7),
    (0, 0, 0.199256573577909),
    (0, 1, -0.122270624794624),
    (0, 2, -0.191449143716586e2),
    (1, 0, -0.150448002905284e-1),
    (1, 2, 0.146407900162154e2),
    (2, 2, -0.327477787188230e1) ]

/-- `src/r3/region3_Tv_phps.rs:326-364` ps2v_3b_reg3 -/
def ps2v_3b_reg3 (p : F) (s : F) : F :=
  let pi : F := p / 100.0 + 0.298
  let sigma : F := s / 5.3 - 0.816
  0.0088 * poly_powi pi sigma ps2v_3b_reg3_IJn

/-- `src/r3/region3_Tv_phps.rs:366-372` ps2T_reg3 -/
def ps2T_reg3 (p : F) (s : F) : F :=
  if s <=. SC_WATER then
    ps2T_3a_reg3 p s
  else
    ps2T_3b_reg3 p s

/-- `src/r3/region3_Tv_phps.rs:374-380` ps2v_reg3 -/
def ps2v_reg3 (p : F) (s : F) : F :=
  if s <=. SC_WATER then
    ps2v_3a_reg3 p s
  else
    ps2v_3b_reg3 p s

/-! ### src/r3/region3_p_hs.rs -/

/-- `src/r3/region3_p_hs.rs`:13-47 -/
def hs2p3a_reg3_IJn : List (Int × Int × F) :=
  [ (0, 0, 0.770889828326934e1),
    (0, 1, -0.260835009128688e2),
    (0, 5, 0.267416218930389e3),
    (1, 0, 0.172221089496844e2),
    (1, 3, -0.293542332145970e3),
    (1, 4, 0.614135601882478e3),
    (1, 8, -0.610562757725674e5),
    (1, 14, -0.651272251118219e8),
    (2, 6, 0.735919313521937e5),
    (2, 16, -0.116646505914191e11),
    (3, 0, 0.355267086434461e2),
    (3, 2, -0.596144543825955e3),
    (3, 3, -0.475842430145708e3),
    (4, 0, 0.696781965359503e2),
    (4, 1, 0.335674250377312e3),
    (4, 4, 0.250526809130882e5),
    (4, 5, 0.146997380630766e6),
    (5, 28, 0.538069315091534e20),
    (6, 28, 0.143619827291346e22),
    (7, 24, 0.364985866165994e20),
    (8, 1, -0.254741561156775e4),
    (10, 32, 0.240120197096563e28),
    (10, 36, -0.393847464679496e30),
    (14, 22, 0.147073407024852e25),
    (18, 28, -0.426391250432059e32),
    (20, 36, 0.194509340621077e39),
    (22, 16, 0.666212132114896e24),
    (22, 28, 0.706777016552858e34),
    (24, 36, 0.175563621975576e42),
    (28, 16, 0.108408607429124e29),
    (28, 36, 0.730872705175151e44),
    (32, 10, 0.159145847398870e25),
    (32, 28, 0.377121605943324e41) ]

/-- `src/r3/region3_p_hs.rs:12-52` hs2p3a_reg3 -/
def hs2p3a_reg3 (h : F) (s : F) : F :=
  let nu : F := h / 2300.0 - 1.01
  let sigma : F := s / 4.4 - 0.75
  99.0 * poly_powi nu sigma hs2p3a_reg3_IJn

/-- `src/r3/region3_p_hs.rs`:56-92 -/
def hs2p3b_reg3_IJn : List (Int × Int × F) :=
  [ (-12, 2, 0.125244360717979e-12),
    (-12, 10, -0.126599322553713e-1),
    (-12, 12, 0.506878030140626e1),
    (-12, 14, 0.317847171154202e2),
    (-12, 20, -0.391041161399932e6),
    (-10, 2, -0.975733406392044e-10),
    (-10, 10, -0.186312419488279e2),
    (-10, 14, 0.510973543414101e3),
    (-10, 18, 0.373847005822362e6),
    (-8, 2, 0.299804024666572e-7),
    (-8, 8, 0.200544393820342e2),
    (-6, 2, -0.498030487662829e-5),
    (-6, 6, -0.102301806360030e2),
    (-6, 7, 0.552819126990325e2),
    (-6, 8, -0.206211367510878e3),
    (-5, 10, -0.794012232324823e4),
    (-4, 4, 0.782248472028153e1),
    (-4, 5, -0.586544326902468e2),
    (-4, 8, 0.355073647696481e4),
    (-3, 1, -0.115303107290162e-3),
    (-3, 3, -0.175092403171802e1),
    (-3, 5, 0.257981687748160e3),
    (-3, 6, -0.727048374179467e3),
    (-2, 0, 0.121644822609198e-3),
    (-2, 1, 0.393137871762692e-1),
    (-1, 0, 0.704181005909296e-2),
    (0, 3, -0.829108200698110e2),
    (2, 0, -0.265178818131250),
    (2, 1, 0.137531682453991e2),
    (5, 0, -0.522394090753046e2),
    (6, 1, 0.240556298941048e4),
    (8, 1, -0.227361631268929e5),
    (10, 1, 0.890746343932567e5),
    (14, 3, -0.239234565822486e8),
    (14, 7, 0.568795808129714e10) ]

/-- `src/r3/region3_p_hs.rs:55-97` hs2p3b_reg3 -/
def hs2p3b_reg3 (h : F) (s : F) : F :=
  let nu : F := h / 2800.0 - 0.681
  let sigma : F := s / 5.3 - 0.792
  16.6 / poly_powi nu sigma hs2p3b_reg3_IJn

/-- `src/r3/region3_p_hs.rs:100-106` hs2p_reg3 -/
def hs2p_reg3 (h : F) (s : F) : F :=
  if s <=. SC_WATER then
    hs2p3a_reg3 h s
  else
    hs2p3b_reg3 h s

end If97
