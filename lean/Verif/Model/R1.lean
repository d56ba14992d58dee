/-
Generated by tools/rs2lean.py from the Rust sources cited below.
Number type `F` is abstract; see Verif/Model/Num.lean for the conventions.
-/
import Verif.Model.Poly
import Verif.Model.Const
set_option linter.unusedVariables false

namespace If97
open Flt
variable {F : Type} [Add F] [Sub F] [Mul F] [Div F] [Neg F] [OfScientific F] [Flt F]

/-! ### src/r1/region1_gfe.rs -/

/-- `src/r1/region1_gfe.rs`:9 -/
def r1pstar : F := 16.53

/-- `src/r1/region1_gfe.rs`:10 -/
def r1Tstar : F := 1386.0

/-- `src/r1/region1_gfe.rs`:13-48 -/
def r1_IJn : List (Int × Int × F) :=
  [ (0, -2, 0.14632971213167e0),
    (0, -1, -0.84548187169114e0),
    (0, 0, -0.37563603672040e1),
    (0, 1, 0.33855169168385e1),
    (0, 2, -0.95791963387872e0),
    (0, 3, 0.15772038513228e0),
    (0, 4, -0.16616417199501e-1),
    (0, 5, 0.81214629983568e-3),
    (1, -9, 0.28319080123804e-3),
    (1, -7, -0.60706301565874e-3),
    (1, -1, -0.18990068218419e-1),
    (1, 0, -0.32529748770505e-1),
    (1, 1, -0.21841717175414e-1),
    (1, 3, -0.52838357969930e-4),
    (2, -3, -0.47184321073267e-3),
    (2, 0, -0.30001780793026e-3),
    (2, 1, 0.47661393906987e-4),
    (2, 3, -0.44141845330846e-5),
    (2, 17, -0.72694996297594e-15),
    (3, -4, -0.31679644845054e-4),
    (3, 0, -0.28270797985312e-5),
    (3, 6, -0.85205128120103e-9),
    (4, -5, -0.22425281908000e-5),
    (4, -2, -0.65171222895601e-6),
    (4, 10, -0.14341729937924e-12),
    (5, -8, -0.40516996860117e-6),
    (8, -11, -0.12734301741641e-8),
    (8, -6, -0.17424871230634e-9),
    (21, -29, -0.68762131295531e-18),
    (23, -31, 0.14478307828521e-19),
    (29, -38, 0.26335781662795e-22),
    (30, -39, -0.11947622640071e-22),
    (31, -40, 0.18228094581404e-23),
    (32, -41, -0.93537087292458e-25) ]

/-- `src/r1/region1_gfe.rs` -/
def gamma_reg1_steps : List (Nat × Nat) := [(0, 19), (19, 34)]

/-- `src/r1/region1_gfe.rs:51-54` gamma_reg1 -/
def gamma_reg1 (pi : F) (tau : F) : F :=
  poly_powi_steps (7.1 - pi) (tau - 1.222) r1_IJn gamma_reg1_steps

/-- `src/r1/region1_gfe.rs` -/
def gamma_pi_reg1_steps : List (Nat × Nat) := [(0, 17), (17, 34)]

/-- `src/r1/region1_gfe.rs:57-60` gamma_pi_reg1 -/
def gamma_pi_reg1 (pi : F) (tau : F) : F :=
  (-poly_i_powi_steps (7.1 - pi) (tau - 1.222) r1_IJn gamma_pi_reg1_steps)

/-- `src/r1/region1_gfe.rs` -/
def gamma_pipi_reg1_steps : List (Nat × Nat) := [(0, 17), (17, 34)]

/-- `src/r1/region1_gfe.rs:63-66` gamma_pipi_reg1 -/
def gamma_pipi_reg1 (pi : F) (tau : F) : F :=
  poly_ii_powi_steps (7.1 - pi) (tau - 1.222) r1_IJn gamma_pipi_reg1_steps

/-- `src/r1/region1_gfe.rs` -/
def gamma_tau_reg1_steps : List (Nat × Nat) := [(0, 17), (17, 34)]

/-- `src/r1/region1_gfe.rs:69-72` gamma_tau_reg1 -/
def gamma_tau_reg1 (pi : F) (tau : F) : F :=
  poly_j_powi_steps (7.1 - pi) (tau - 1.222) r1_IJn gamma_tau_reg1_steps

/-- `src/r1/region1_gfe.rs` -/
def gamma_tautau_reg1_steps : List (Nat × Nat) := [(0, 15), (15, 26), (26, 34)]

/-- `src/r1/region1_gfe.rs:75-79` gamma_tautau_reg1 -/
def gamma_tautau_reg1 (pi : F) (tau : F) : F :=
  poly_jj_powi_steps (7.1 - pi) (tau - 1.222) r1_IJn gamma_tautau_reg1_steps

/-- `src/r1/region1_gfe.rs` -/
def gamma_pitau_reg1_steps : List (Nat × Nat) := [(0, 17), (17, 34)]

/-- `src/r1/region1_gfe.rs:82-85` gamma_pitau_reg1 -/
def gamma_pitau_reg1 (pi : F) (tau : F) : F :=
  (-poly_ij_powi_steps (7.1 - pi) (tau - 1.222) r1_IJn gamma_pitau_reg1_steps)

/-- `src/r1/region1_gfe.rs` -/
def polys_i_j_powi_reg1_steps : List (Nat × Nat) := [(0, 16), (16, 26), (26, 34)]

/-- `src/r1/region1_gfe.rs:88-92` polys_i_j_powi_reg1 -/
def polys_i_j_powi_reg1 (pi : F) (tau : F) : (F × F) :=
  let (d_pi, d_tau) := polys_i_j_powi_steps (7.1 - pi) (tau - 1.222) r1_IJn polys_i_j_powi_reg1_steps
  (-d_pi, d_tau)

/-- `src/r1/region1_gfe.rs` -/
def polys_i_ii_powi_reg1_steps : List (Nat × Nat) := [(0, 14), (14, 26), (26, 34)]

/-- `src/r1/region1_gfe.rs:94-98` polys_i_ii_powi_reg1 -/
def polys_i_ii_powi_reg1 (pi : F) (tau : F) : (F × F) :=
  let (poly_pi, poly_pipi) := polys_i_ii_powi_steps (7.1 - pi) (tau - 1.222) r1_IJn polys_i_ii_powi_reg1_steps
  (-poly_pi, poly_pipi)

/-- `src/r1/region1_gfe.rs` -/
def polys_0_j_powi_reg1_steps : List (Nat × Nat) := [(0, 16), (16, 34)]

/-- `src/r1/region1_gfe.rs:100-103` polys_0_j_powi_reg1 -/
def polys_0_j_powi_reg1 (pi : F) (tau : F) : (F × F) :=
  polys_0_j_powi_steps (7.1 - pi) (tau - 1.222) r1_IJn polys_0_j_powi_reg1_steps

/-- `src/r1/region1_gfe.rs` -/
def polys_i_ij_powi_reg1_steps : List (Nat × Nat) := [(0, 17), (17, 34)]

/-- `src/r1/region1_gfe.rs:105-109` polys_i_ij_powi_reg1 -/
def polys_i_ij_powi_reg1 (pi : F) (tau : F) : (F × F) :=
  let (ploy_pi, ploy_pitau) := polys_i_ij_powi_steps (7.1 - pi) (tau - 1.222) r1_IJn polys_i_ij_powi_reg1_steps
  (-ploy_pi, -ploy_pitau)

/-- `src/r1/region1_gfe.rs` -/
def polys_i_ii_ij_jj_powi_reg1_steps : List (Nat × Nat) := [(0, 11), (11, 20), (20, 28), (28, 34)]

/-- `src/r1/region1_gfe.rs:112-117` polys_i_ii_ij_jj_powi_reg1 -/
def polys_i_ii_ij_jj_powi_reg1 (pi : F) (tau : F) : (F × F × F × F) :=
  let (ploy_pi, ploy_pipi, ploy_pitau, ploy_tautau) := polys_i_ii_ij_jj_powi_steps (7.1 - pi) (tau - 1.222) r1_IJn polys_i_ii_ij_jj_powi_reg1_steps
  (-ploy_pi, ploy_pipi, -ploy_pitau, ploy_tautau)

/-! ### src/r1/region1_pT.rs -/

/-- `src/r1/region1_pT.rs:19-23` pT2v_reg1 -/
def pT2v_reg1 (p : F) (T : F) : F :=
  let tau : F := r1Tstar / T
  let pi : F := p / r1pstar
  0.001 * RGAS_WATER * T * pi * gamma_pi_reg1 pi tau / p

/-- `src/r1/region1_pT.rs:26-31` pT2u_reg1 -/
def pT2u_reg1 (p : F) (T : F) : F :=
  let pi : F := p / r1pstar
  let tau : F := r1Tstar / T
  let (d_pi, d_tau) := polys_i_j_powi_reg1 pi tau
  RGAS_WATER * T * (tau * d_tau - pi * d_pi)

/-- `src/r1/region1_pT.rs:34-39` pT2s_reg1 -/
def pT2s_reg1 (p : F) (T : F) : F :=
  let tau : F := r1Tstar / T
  let pi : F := p / r1pstar
  let (v, d_tau) := polys_0_j_powi_reg1 pi tau
  RGAS_WATER * (tau * d_tau - v)

/-- `src/r1/region1_pT.rs:42-46` pT2h_reg1 -/
def pT2h_reg1 (p : F) (T : F) : F :=
  let tau : F := r1Tstar / T
  let pi : F := p / r1pstar
  RGAS_WATER * T * tau * gamma_tau_reg1 pi tau

/-- `src/r1/region1_pT.rs:49-53` pT2cp_reg1 -/
def pT2cp_reg1 (p : F) (T : F) : F :=
  let tau : F := r1Tstar / T
  let pi : F := p / r1pstar
  (-RGAS_WATER * tau * tau * gamma_tautau_reg1 pi tau)

/-- `src/r1/region1_pT.rs:56-65` pT2cv_reg1 -/
def pT2cv_reg1 (p : F) (T : F) : F :=
  let tau : F := r1Tstar / T
  let pi : F := p / r1pstar
  let (d_pi, d_pipi, d_pitau, d_tautau) := polys_i_ii_ij_jj_powi_reg1 pi tau
  let a : F := -tau * tau * d_tautau
  let b : F := d_pi - tau * d_pitau
  let b := b * b
  RGAS_WATER * (a + b / d_pipi)

/-- `src/r1/region1_pT.rs:69-80` pT2w_reg1 -/
def pT2w_reg1 (p : F) (T : F) : F :=
  let tau : F := r1Tstar / T
  let pi : F := p / r1pstar
  let (d_pi, d_pipi, d_pitau, d_tautau) := polys_i_ii_ij_jj_powi_reg1 pi tau
  let a : F := d_pi - tau * d_pitau
  let a := a * a
  let b : F := a / (tau * tau * d_tautau) - d_pipi
  let temp : F := 1000.0 * RGAS_WATER * T / b
  d_pi * fsqrt temp

/-! ### src/r1/region1_pT_ext.rs -/

/-- `src/r1/region1_pT_ext.rs:54-58` pT2g_reg1 -/
def pT2g_reg1 (p : F) (T : F) : F :=
  let tau : F := r1Tstar / T
  let pi : F := p / r1pstar
  RGAS_WATER * T * gamma_reg1 pi tau

/-- `src/r1/region1_pT_ext.rs:62-66` pT2f_reg1 -/
def pT2f_reg1 (p : F) (T : F) : F :=
  let tau : F := r1Tstar / T
  let pi : F := p / r1pstar
  RGAS_WATER * T * (gamma_reg1 pi tau - pi * gamma_pi_reg1 pi tau)

/-- `src/r1/region1_pT_ext.rs:70-76` pT2kt_reg1 -/
def pT2kt_reg1 (p : F) (T : F) : F :=
  let tau : F := r1Tstar / T
  let pi : F := p / r1pstar
  let (d_pi, d_pipi) := polys_i_ii_powi_reg1 pi tau
  (-d_pipi / d_pi / r1pstar)

/-- `src/r1/region1_pT_ext.rs:81-86` pT2ec_reg1 -/
def pT2ec_reg1 (p : F) (T : F) : F :=
  let tau : F := r1Tstar / T
  let pi : F := p / r1pstar
  let (d_pi, d_pitau) := polys_i_ij_powi_reg1 pi tau
  1.0 / T - tau * -d_pitau / -d_pi / T

/-- `src/r1/region1_pT_ext.rs:89-96` pT2dpdtcv_reg1 -/
def pT2dpdtcv_reg1 (p : F) (T : F) : F :=
  let tau : F := r1Tstar / T
  let pi : F := p / r1pstar
  let gamma_pitau : F := gamma_pitau_reg1 pi tau
  let gamma_pi : F := gamma_pi_reg1 pi tau
  let gamma_pipi : F := gamma_pipi_reg1 pi tau
  r1pstar * (gamma_pitau * r1Tstar - gamma_pi * T) / (T * T * gamma_pipi)

/-- `src/r1/region1_pT_ext.rs:100-108` pT2joule_reg1 -/
def pT2joule_reg1 (p : F) (T : F) : F :=
  let tau : F := r1Tstar / T
  let pi : F := p / r1pstar
  let g1pi : F := gamma_pi_reg1 pi tau
  let v : F := RGAS_WATER * T * g1pi / r1pstar
  let cp : F := -RGAS_WATER * tau * tau * gamma_tautau_reg1 pi tau
  let TCex_1 : F := -tau * gamma_pitau_reg1 pi tau / g1pi
  v / cp * TCex_1

/-- `src/r1/region1_pT_ext.rs:113-117` pT2iJTC_reg1 -/
def pT2iJTC_reg1 (p : F) (T : F) : F :=
  let tau : F := r1Tstar / T
  let pi : F := p / r1pstar
  0.001 * RGAS_WATER * r1Tstar * gamma_pitau_reg1 pi tau / r1pstar

/-- `src/r1/region1_pT_ext.rs:120-124` pT2dvdpct_reg1 -/
def pT2dvdpct_reg1 (p : F) (T : F) : F :=
  let tau : F := r1Tstar / T
  let pi : F := p / r1pstar
  0.001 * RGAS_WATER * T * gamma_pipi_reg1 pi tau / r1pstar / r1pstar

/-- `src/r1/region1_pT_ext.rs:127-131` pT2dvdTcp_reg1 -/
def pT2dvdTcp_reg1 (p : F) (T : F) : F :=
  let tau : F := r1Tstar / T
  let pi : F := p / r1pstar
  0.001 * RGAS_WATER * (gamma_pi_reg1 pi tau - tau * gamma_pitau_reg1 pi tau) / r1pstar

/-- `src/r1/region1_pT_ext.rs:134-137` pT2z_reg1 -/
def pT2z_reg1 (p : F) (T : F) : F :=
  let v : F := pT2v_reg1 p T
  1000.0 * p * v / RGAS_WATER / T

/-- `src/r1/region1_pT_ext.rs:141-145` pT2k_reg1 -/
def pT2k_reg1 (p : F) (T : F) : F :=
  let v : F := pT2v_reg1 p T
  let w : F := pT2w_reg1 p T
  1.0e-6 * w * w / v / p

/-- `src/r1/region1_pT_ext.rs:149-151` pT2pc_reg1 -/
def pT2pc_reg1 (p : F) (T : F) : F :=
  1.0 / p * pT2dpdtcv_reg1 p T

/-- `src/r1/region1_pT_ext.rs:154-160` pT2e_reg1 -/
def pT2e_reg1 (p : F) (T : F) : F :=
  let tau : F := r1Tstar / T
  let pi : F := p / r1pstar
  let gumma : F := gamma_reg1 pi tau
  let gumma_tau : F := gamma_tau_reg1 pi tau
  RGAS_WATER * (T * gumma + (T - 273.16) * (tau * gumma_tau - gumma))

/-- `src/r1/region1_pT_ext.rs:166-170` pT2batap_reg1 -/
def pT2batap_reg1 (p : F) (T : F) : F :=
  let v : F := pT2v_reg1 p T
  let kt : F := pT2kt_reg1 p T
  1.0 / (p * v * kt)

/-- `src/r1/region1_pT_ext.rs:174-177` pT2fi_reg1 -/
def pT2fi_reg1 (p : F) (T : F) : F :=
  let g : F := pT2g_reg1 p T
  fexp (g / RGAS_WATER / T)

/-- `src/r1/region1_pT_ext.rs:181-184` pT2fu_reg1 -/
def pT2fu_reg1 (p : F) (T : F) : F :=
  let fi : F := pT2fi_reg1 p T
  p * fi

/-- `src/r1/region1_pT_ext.rs:188-192` pT2alfap_reg1 -/
def pT2alfap_reg1 (p : F) (T : F) : F :=
  let ec : F := pT2ec_reg1 p T
  let kt : F := pT2kt_reg1 p T
  ec / p / kt

/-- `src/r1/region1_pT_ext.rs:30-51` pT_ext_reg1 -/
def pT_ext_reg1 (p : F) (T : F) (o_id : Int) : F :=
  if o_id == OF then
    pT2f_reg1 p T
  else if o_id == OG then
    pT2g_reg1 p T
  else if o_id == OZ then
    pT2z_reg1 p T
  else if o_id == OKS then
    pT2k_reg1 p T
  else if o_id == OKT then
    pT2kt_reg1 p T
  else if o_id == OEC then
    pT2ec_reg1 p T
  else if o_id == OJTC then
    pT2joule_reg1 p T
  else if o_id == OIJTC then
    pT2iJTC_reg1 p T
  else if o_id == OPC then
    pT2pc_reg1 p T
  else if o_id == ODPDT then
    pT2dpdtcv_reg1 p T
  else if o_id == ODVDP then
    pT2dvdpct_reg1 p T
  else if o_id == ODVDT then
    pT2dvdTcp_reg1 p T
  else if o_id == OE then
    pT2e_reg1 p T
  else if o_id == OBETAP then
    pT2batap_reg1 p T
  else if o_id == OFI then
    pT2fi_reg1 p T
  else if o_id == OFU then
    pT2fu_reg1 p T
  else if o_id == OALFAP then
    pT2alfap_reg1 p T
  else
    ofI32 INVALID_OUTID

/-! ### src/r1/region1_T_phps.rs -/

/-- `src/r1/region1_T_phps.rs`:13-34 -/
def ph2T_reg1_IJn : List (Int × Int × F) :=
  [ (0, 0, -238.72489924521),
    (0, 1, 404.21188637945),
    (0, 2, 113.49746881718),
    (0, 6, -5.8457616048039),
    (0, 22, -1.528548241314e-4),
    (0, 32, -1.0866707695377e-6),
    (1, 0, -13.391744872602),
    (1, 1, 43.211039183559),
    (1, 2, -54.010067170506),
    (1, 3, 30.535892203916),
    (1, 4, -6.5964749423638),
    (1, 10, 9.3965400878363e-3),
    (1, 32, 1.157364750534e-7),
    (2, 10, -2.5858641282073e-5),
    (2, 32, -4.0644363084799e-9),
    (3, 10, 6.6456186191635e-8),
    (3, 32, 8.0670734103027e-11),
    (4, 32, -9.3477771213947e-13),
    (5, 32, 5.8265442020601e-15),
    (6, 32, -1.5020185953503e-17) ]

/-- `src/r1/region1_T_phps.rs:11-40` ph2T_reg1 -/
def ph2T_reg1 (p : F) (h : F) : F :=
  let pi : F := p / 1.0
  let eta : F := h / 2500.0 + 1.0
  let theta : F := poly_powi pi eta ph2T_reg1_IJn
  1.0 * theta

/-- `src/r1/region1_T_phps.rs`:45-66 -/
def ps2T_reg1_IJn : List (Int × Int × F) :=
  [ (0, 0, 0.17478268058307e3),
    (0, 1, 0.34806930892873e2),
    (0, 2, 0.65292584978455e1),
    (0, 3, 0.33039981775489),
    (0, 11, -0.19281382923196e-6),
    (0, 31, -0.24909197244573e-22),
    (1, 0, -0.26107636489332),
    (1, 1, 0.22592965981586),
    (1, 2, -0.64256463395226e-1),
    (1, 3, 0.78876289270526e-2),
    (1, 12, 0.35672110607366e-9),
    (1, 31, 0.17332496994895e-23),
    (2, 0, 0.56608900654837e-3),
    (2, 1, -0.32635483139717e-3),
    (2, 2, 0.44778286690632e-4),
    (2, 9, -0.51322156908507e-9),
    (2, 31, -0.42522657042207e-25),
    (3, 10, 0.26400441360689e-12),
    (3, 32, 0.78124600459723e-28),
    (4, 32, -0.30732199903668e-30) ]

/-- `src/r1/region1_T_phps.rs:43-72` ps2T_reg1 -/
def ps2T_reg1 (p : F) (s : F) : F :=
  let pi : F := p / 1.0
  let sigma : F := s / 1.0 + 2.0
  let theta : F := poly_powi pi sigma ps2T_reg1_IJn
  1.0 * theta

/-! ### src/r1/region1_p_hs.rs -/

/-- `src/r1/region1_p_hs.rs:10-13` ph2s_reg1 -/
def ph2s_reg1 (p : F) (h : F) : F :=
  let T : F := ph2T_reg1 p h
  pT2s_reg1 p T

/-- `src/r1/region1_p_hs.rs`:21-41 -/
def hs2p_reg1_IJn : List (Int × Int × F) :=
  [ (0, 0, -0.691997014660582),
    (0, 1, -0.183612548787560e2),
    (0, 2, -0.928332409297335e1),
    (0, 4, 0.659639569909906e2),
    (0, 5, -0.162060388912024e2),
    (0, 6, 0.450620017338667e3),
    (0, 8, 0.854680678224170e3),
    (0, 14, 0.607523214001162e4),
    (1, 0, 0.326487682621856e2),
    (1, 1, -0.269408844582931e2),
    (1, 4, -0.319947848334300e3),
    (1, 6, -0.928354307043320e3),
    (2, 0, 0.303634537455249e2),
    (2, 1, -0.650540422444146e2),
    (2, 10, -0.430991316516130e4),
    (3, 4, -0.747512324096068e3),
    (4, 1, 0.730000345529245e3),
    (4, 4, 0.114284032569021e4),
    (5, 0, -0.436407041874559e3) ]

/-- `src/r1/region1_p_hs.rs:18-47` hs2p_reg1 -/
def hs2p_reg1 (h : F) (s : F) : F :=
  let eta : F := h / 3400.0 + 0.05
  let sigma : F := s / 7.6 + 0.05
  let pi : F := poly_powi eta sigma hs2p_reg1_IJn
  100.0 * pi

end If97
