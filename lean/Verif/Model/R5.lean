/-
Generated by tools/rs2lean.py from the Rust sources cited below.
Number type `F` is abstract; see Verif/Model/Num.lean for the conventions.
-/
import Verif.Model.Poly
import Verif.Model.Const
import Verif.Model.Root
set_option linter.unusedVariables false

namespace If97
open Flt
variable {F : Type} [Add F] [Sub F] [Mul F] [Div F] [Neg F] [OfScientific F] [Flt F]

/-! ### src/r5/region5_gfe.rs -/

/-- `src/r5/region5_gfe.rs`:7 -/
def r5Pstar : F := 1.0

/-- `src/r5/region5_gfe.rs`:8 -/
def r5Tstar : F := 1000.0

/-- `src/r5/region5_gfe.rs`:14 -/
def r5_Jo : List Int :=
  [ 0,
    1,
    -3,
    -2,
    -1,
    2 ]

/-- `src/r5/region5_gfe.rs`:16-23 -/
def r5_no : List F :=
  [ -0.13179983674201e2,
    0.68540841634434e1,
    -0.24805148933466e-1,
    0.36901534980333,
    -0.31161318213925e1,
    -0.32961626538917 ]

/-- `src/r5/region5_gfe.rs:26-32` gamma0_reg5 -/
def gamma0_reg5 (pi : F) (tau : F) : F :=
  let result : F := fln pi
  let result := (List.range' 0 6).foldl (fun result i =>
      result + nthF r5_no i * powi tau (nthI r5_Jo i)) result
  result

/-- `src/r5/region5_gfe.rs:35-37` gamma0_pi_reg5 -/
def gamma0_pi_reg5 (pi : F) : F :=
  1.0 / pi

/-- `src/r5/region5_gfe.rs:40-42` gamma0_pipi_reg5 -/
def gamma0_pipi_reg5 (pi : F) : F :=
  (-1.0 / pi / pi)

/-- `src/r5/region5_gfe.rs:44-50` gamma0_tau_reg5 -/
def gamma0_tau_reg5 (tau : F) : F :=
  let result : F := 0.0
  let result := (List.range' 0 6).foldl (fun result i =>
      result + nthF r5_no i * ofI32 (nthI r5_Jo i) * powi tau (nthI r5_Jo i - 1)) result
  result

/-- `src/r5/region5_gfe.rs:52-58` gamma0_tautau_reg5 -/
def gamma0_tautau_reg5 (tau : F) : F :=
  let result : F := 0.0
  let result := (List.range' 0 6).foldl (fun result i =>
      result + nthF r5_no i * ofI32 (nthI r5_Jo i * (nthI r5_Jo i - 1)) * powi tau (nthI r5_Jo i - 2)) result
  result

/-- `src/r5/region5_gfe.rs:60-62` gamma0_pitau_reg5 -/
def gamma0_pitau_reg5 : F :=
  0.0

/-- `src/r5/region5_gfe.rs`:67-74 -/
def r5_IJn : List (Int × Int × F) :=
  [ (1, 1, 0.15736404855259e-2),
    (1, 2, 0.90153761673944e-3),
    (1, 3, -0.50270077677648e-2),
    (2, 3, 0.22440037409485e-5),
    (2, 9, -0.41163275453471e-5),
    (3, 7, 0.37919454822955e-7) ]

/-- `src/r5/region5_gfe.rs:76-78` gammar_reg5 -/
def gammar_reg5 (pi : F) (tau : F) : F :=
  poly_powi pi tau r5_IJn

/-- `src/r5/region5_gfe.rs:83-85` gammar_pi_reg5 -/
def gammar_pi_reg5 (pi : F) (tau : F) : F :=
  poly_i_powi pi tau r5_IJn

/-- `src/r5/region5_gfe.rs:87-89` gammar_pipi_reg5 -/
def gammar_pipi_reg5 (pi : F) (tau : F) : F :=
  poly_ii_powi pi tau r5_IJn

/-- `src/r5/region5_gfe.rs:91-93` gammar_tau_reg5 -/
def gammar_tau_reg5 (pi : F) (tau : F) : F :=
  poly_j_powi pi tau r5_IJn

/-- `src/r5/region5_gfe.rs:96-98` gammar_tautau_reg5 -/
def gammar_tautau_reg5 (pi : F) (tau : F) : F :=
  poly_jj_powi pi tau r5_IJn

/-- `src/r5/region5_gfe.rs:100-102` gammar_pitau_reg5 -/
def gammar_pitau_reg5 (pi : F) (tau : F) : F :=
  poly_ij_powi pi tau r5_IJn

/-! ### src/r5/region5_pT.rs -/

/-- `src/r5/region5_pT.rs:10-15` pT2v_reg5 -/
def pT2v_reg5 (p : F) (T : F) : F :=
  let pi : F := p / r5Pstar
  let tau : F := r5Tstar / T
  let a : F := pi * (gamma0_pi_reg5 pi + gammar_pi_reg5 pi tau)
  RGAS_WATER * T / p * a * 0.001

/-- `src/r5/region5_pT.rs:17-24` pT2u_reg5 -/
def pT2u_reg5 (p : F) (T : F) : F :=
  let pi : F := p / r5Pstar
  let tau : F := r5Tstar / T
  let (sum_gammar_pi, sum_gammar_tau) := polys_i_j_powi pi tau r5_IJn
  let a : F := tau * (gamma0_tau_reg5 tau + sum_gammar_tau) - pi * (gamma0_pi_reg5 pi + sum_gammar_pi)
  RGAS_WATER * T * a

/-- `src/r5/region5_pT.rs:26-32` pT2s_reg5 -/
def pT2s_reg5 (p : F) (T : F) : F :=
  let pi : F := p / r5Pstar
  let tau : F := r5Tstar / T
  let (sum_gammar, sum_gammar_tau) := polys_0_j_powi pi tau r5_IJn
  let a : F := tau * (gamma0_tau_reg5 tau + sum_gammar_tau) - (gamma0_reg5 pi tau + sum_gammar)
  RGAS_WATER * a

/-- `src/r5/region5_pT.rs:34-39` pT2h_reg5 -/
def pT2h_reg5 (p : F) (T : F) : F :=
  let pi : F := p / r5Pstar
  let tau : F := r5Tstar / T
  let a : F := tau * (gamma0_tau_reg5 tau + gammar_tau_reg5 pi tau)
  RGAS_WATER * T * a

/-- `src/r5/region5_pT.rs:41-46` pT2cp_reg5 -/
def pT2cp_reg5 (p : F) (T : F) : F :=
  let pi : F := p / r5Pstar
  let tau : F := r5Tstar / T
  let a : F := -tau * tau * (gamma0_tautau_reg5 tau + gammar_tautau_reg5 pi tau)
  RGAS_WATER * a

/-- `src/r5/region5_pT.rs:48-58` pT2cv_reg5 -/
def pT2cv_reg5 (p : F) (T : F) : F :=
  let pi : F := p / r5Pstar
  let tau : F := r5Tstar / T
  let (gammar_pi, gammar_pipi, gammar_pitau, gammar_tautau) := polys_i_ii_ij_jj_powi pi tau r5_IJn
  let a : F := -tau * tau * (gamma0_tautau_reg5 tau + gammar_tautau)
  let b : F := 1.0 + pi * gammar_pi - tau * pi * gammar_pitau
  let c : F := 1.0 - pi * pi * gammar_pipi
  RGAS_WATER * (a - b * b) / c

/-- `src/r5/region5_pT.rs:60-76` pT2w_reg5 -/
def pT2w_reg5 (p : F) (T : F) : F :=
  let tau : F := r5Tstar / T
  let pi : F := p / r5Pstar
  let (gammar_pi, gammar_pipi, gammar_pitau, gammar_tautau) := polys_i_ii_ij_jj_powi pi tau r5_IJn
  let temp : F := pi * gammar_pi
  let a : F := 1.0 + temp * (2.0 + temp)
  let b : F := 1.0 - pi * pi * gammar_pipi
  let c : F := 1.0 + pi * (gammar_pi - tau * gammar_pitau)
  let d : F := tau * tau * (gamma0_tautau_reg5 tau + gammar_tautau)
  let w : F := RGAS_WATER * T * a / (b + c * c / d) * 1000.0
  let w :=
    if w <. 0.0 then
      0.0
    else
      w
  fsqrt w

/-! ### src/r5/region5_pT_ext.rs -/

/-- `src/r5/region5_pT_ext.rs:35-39` pT2g_reg5 -/
def pT2g_reg5 (p : F) (T : F) : F :=
  let tau : F := r5Tstar / T
  let pi : F := p / r5Pstar
  RGAS_WATER * T * (gamma0_reg5 pi tau + gammar_reg5 pi tau)

/-- `src/r5/region5_pT_ext.rs:43-47` pT2f_reg5 -/
def pT2f_reg5 (p : F) (T : F) : F :=
  let tau : F := r5Tstar / T
  let pi : F := p / r5Pstar
  RGAS_WATER * T * (gamma0_reg5 pi tau + gammar_reg5 pi tau - p * (gamma0_pi_reg5 pi + gammar_pi_reg5 pi tau))

/-- `src/r5/region5_pT_ext.rs:51-57` pT2kt_reg5 -/
def pT2kt_reg5 (p : F) (T : F) : F :=
  let tau : F := r5Tstar / T
  let pi : F := p / r5Pstar
  let gummapipi : F := gamma0_pipi_reg5 pi + gammar_pipi_reg5 pi tau
  let gummapi : F := gamma0_pi_reg5 pi + gammar_pi_reg5 pi tau
  (-(gummapipi / gummapi))

/-- `src/r5/region5_pT_ext.rs:60-66` pT2dvdtcp_reg5 -/
def pT2dvdtcp_reg5 (p : F) (T : F) : F :=
  let tau : F := r5Tstar / T
  let pi : F := p / r5Pstar
  let gummapi : F := gamma0_pi_reg5 pi + gammar_pi_reg5 pi tau
  let gummapitau : F := gamma0_pitau_reg5 + gammar_pitau_reg5 pi tau
  0.001 * RGAS_WATER * (gummapi - tau * gummapitau)

/-- `src/r5/region5_pT_ext.rs:71-74` pT2ec_reg5 -/
def pT2ec_reg5 (p : F) (T : F) : F :=
  let d : F := 1.0 / pT2v_reg5 p T
  d * pT2dvdtcp_reg5 p T

/-- `src/r5/region5_pT_ext.rs:77-82` pT2dvdpct_reg5 -/
def pT2dvdpct_reg5 (p : F) (T : F) : F :=
  let tau : F := r5Tstar / T
  let pi : F := p / r5Pstar
  let gummapipi : F := gamma0_pipi_reg5 pi + gammar_pipi_reg5 pi tau
  0.001 * RGAS_WATER * T * gummapipi

/-- `src/r5/region5_pT_ext.rs:86-96` pT2joule_reg5 -/
def pT2joule_reg5 (p : F) (T : F) : F :=
  let tau : F := r5Tstar / T
  let pi : F := p / r5Pstar
  let gummapi : F := gamma0_pi_reg5 pi + gammar_pi_reg5 pi tau
  let gummatautau : F := gamma0_tautau_reg5 tau + gammar_tautau_reg5 pi tau
  let gummapitau : F := gamma0_pitau_reg5 + gammar_pitau_reg5 pi tau
  let v : F := 0.001 * RGAS_WATER * T * gummapi
  let cp : F := -RGAS_WATER * tau * tau * gummatautau
  let TCex_1 : F := -tau * gummapitau / gummapi
  1000.0 * (v / cp) * TCex_1

/-- `src/r5/region5_pT_ext.rs:101-106` pT2iJTC_reg5 -/
def pT2iJTC_reg5 (p : F) (T : F) : F :=
  let tau : F := r5Tstar / T
  let pi : F := p / r5Pstar
  let gummapitau : F := gamma0_pitau_reg5 + gammar_pitau_reg5 pi tau
  0.001 * RGAS_WATER * r5Tstar * gummapitau

/-- `src/r5/region5_pT_ext.rs:109-116` pT2dpdtcv_reg5 -/
def pT2dpdtcv_reg5 (p : F) (T : F) : F :=
  let tau : F := r5Tstar / T
  let pi : F := p / r5Pstar
  let gummapi : F := gamma0_pi_reg5 pi + gammar_pi_reg5 pi tau
  let gummapitau : F := gamma0_pitau_reg5 + gammar_pitau_reg5 pi tau
  let gummapipi : F := gamma0_pipi_reg5 pi + gammar_pipi_reg5 pi tau
  r5Pstar * (gummapitau * r5Tstar - gummapi * T) / (T * T * gummapipi)

/-- `src/r5/region5_pT_ext.rs:120-122` pT2pc_reg5 -/
def pT2pc_reg5 (p : F) (T : F) : F :=
  1.0 / p * pT2dpdtcv_reg5 p T

/-- `src/r5/region5_pT_ext.rs:124-130` pT2e_reg5 -/
def pT2e_reg5 (p : F) (T : F) : F :=
  let tau : F := r5Tstar / T
  let pi : F := p / r5Pstar
  let gumma : F := gamma0_reg5 pi tau + gammar_reg5 pi tau
  let gummatau : F := gamma0_tau_reg5 tau + gammar_tau_reg5 pi tau
  RGAS_WATER * (T * gumma + (T - Tt) * (tau * gummatau - gumma))

/-- `src/r5/region5_pT_ext.rs:133-136` pT2z_reg5 -/
def pT2z_reg5 (p : F) (T : F) : F :=
  let v : F := pT2v_reg5 p T
  1000.0 * p * v / RGAS_WATER / T

/-- `src/r5/region5_pT_ext.rs:140-144` pT2ks_reg5 -/
def pT2ks_reg5 (p : F) (T : F) : F :=
  let v : F := pT2v_reg5 p T
  let w : F := pT2w_reg5 p T
  1.0e-6 * w * w / v / p

/-- `src/r5/region5_pT_ext.rs:150-154` pT2batap_reg5 -/
def pT2batap_reg5 (p : F) (T : F) : F :=
  let v : F := pT2v_reg5 p T
  let kt : F := pT2kt_reg5 p T
  1.0 / (p * v * kt)

/-- `src/r5/region5_pT_ext.rs:158-164` pT2fi_reg5 -/
def pT2fi_reg5 (p : F) (T : F) : F :=
  let g : F := pT2g_reg5 p T
  let tau : F := r5Tstar / T
  let pi : F := p / r5Pstar
  let g0 : F := T * RGAS_WATER * gamma0_reg5 pi tau
  fexp ((g - g0) / RGAS_WATER / T)

/-- `src/r5/region5_pT_ext.rs:168-171` pT2fu_reg5 -/
def pT2fu_reg5 (p : F) (T : F) : F :=
  let fi : F := pT2fi_reg5 p T
  p * fi

/-- `src/r5/region5_pT_ext.rs:175-179` pT2alfap_reg5 -/
def pT2alfap_reg5 (p : F) (T : F) : F :=
  let ec : F := pT2ec_reg5 p T
  let kt : F := pT2kt_reg5 p T
  ec / p / kt

/-- `src/r5/region5_pT_ext.rs:10-31` pT_ext_reg5 -/
def pT_ext_reg5 (p : F) (T : F) (o_id : Int) : F :=
  if o_id == OF then
    pT2f_reg5 p T
  else if o_id == OG then
    pT2g_reg5 p T
  else if o_id == OZ then
    pT2z_reg5 p T
  else if o_id == OKS then
    pT2ks_reg5 p T
  else if o_id == OKT then
    pT2kt_reg5 p T
  else if o_id == OEC then
    pT2ec_reg5 p T
  else if o_id == OJTC then
    pT2joule_reg5 p T
  else if o_id == OIJTC then
    pT2iJTC_reg5 p T
  else if o_id == OPC then
    pT2pc_reg5 p T
  else if o_id == ODPDT then
    pT2dpdtcv_reg5 p T
  else if o_id == ODVDT then
    pT2dvdtcp_reg5 p T
  else if o_id == ODVDP then
    pT2dvdpct_reg5 p T
  else if o_id == OE then
    pT2e_reg5 p T
  else if o_id == OBETAP then
    pT2batap_reg5 p T
  else if o_id == OFI then
    pT2fi_reg5 p T
  else if o_id == OFU then
    pT2fu_reg5 p T
  else if o_id == OALFAP then
    pT2alfap_reg5 p T
  else
    ofI32 INVALID_OUTID

/-! ### src/r5/region5_ph_ps_hs.rs -/

/-- `src/r5/region5_ph_ps_hs.rs:11-37` ph2T_reg5 -/
def ph2T_reg5 (p : F) (h : F) : F :=
  let T1 : F := 0.5 * (2273.15 + 1073.15)
  let f1 : F := h - pT2h_reg5 p T1
  let T :=
    if fabs f1 >. ESP then
      let T2 :=
        if f1 >. 0.0 then
          (1.0 + f1 / h) * T1
        else
          (1.0 - f1 / h) * T1
      let f2 : F := h - pT2h_reg5 p T2
      rtsec2 pT2h_reg5 p h T1 T2 f1 f2 ESP I_MAX
    else
      T1
  let T :=
    if T <. T_MIN5 then
      T_MIN5
    else if T >. T_MAX5 then
      T_MAX5
    else
      T
  T

/-- `src/r5/region5_ph_ps_hs.rs:39-65` ps2T_reg5 -/
def ps2T_reg5 (p : F) (s : F) : F :=
  let T1 : F := 0.5 * (2273.15 + 1073.15)
  let f1 : F := s - pT2s_reg5 p T1
  let T :=
    if fabs f1 >. ESP then
      let T2 :=
        if f1 >. 0.0 then
          (1.0 + f1 / s) * T1
        else
          (1.0 - f1 / s) * T1
      let f2 : F := s - pT2s_reg5 p T2
      rtsec2 pT2s_reg5 p s T1 T2 f1 f2 ESP I_MAX
    else
      T1
  let T :=
    if T <. T_MIN5 then
      T_MIN5
    else if T >. T_MAX5 then
      T_MAX5
    else
      T
  T

/-- `src/r5/region5_ph_ps_hs.rs:68-71` ph2s_reg5 -/
def ph2s_reg5 (p : F) (h : F) : F :=
  let T : F := ph2T_reg5 p h
  pT2s_reg5 p T

/-- `src/r5/region5_ph_ps_hs.rs:73-98` hs2p_reg5 -/
def hs2p_reg5 (h : F) (s : F) : F :=
  let p1 : F := 0.5 * (P_MIN5 + P_MAX5)
  let f1 : F := s - ph2s_reg5 p1 h
  let p :=
    if fabs f1 >. ESP then
      let p2 :=
        if f1 >. 0.0 then
          (1.0 + f1 / s) * p1
        else
          (1.0 - f1 / s) * p1
      let f2 : F := s - ph2s_reg5 p2 h
      rtsec1 ph2s_reg5 h s p1 p2 f1 f2 ESP I_MAX
    else
      p1
  let p :=
    if p <. P_MIN5 then
      P_MIN5
    else if p >. P_MAX5 then
      P_MAX5
    else
      p
  p

end If97
