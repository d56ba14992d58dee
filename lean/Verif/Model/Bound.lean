/-
Generated by tools/rs2lean.py from the Rust sources cited below.
Number type `F` is abstract; see Verif/Model/Num.lean for the conventions.
-/
import Verif.Model.R1
import Verif.Model.R2
set_option linter.unusedVariables false

namespace If97
open Flt
variable {F : Type} [Add F] [Sub F] [Mul F] [Div F] [Neg F] [OfScientific F] [Flt F]

/-! ### src/common/boundaries.rs -/

/-- `src/common/boundaries.rs`:14 -/
def B23_T2p_n23 : List F := [0.34805185628969e3, -0.11671859879975e1, 0.10192970039326e-2]

/-- `src/common/boundaries.rs:13-16` B23_T2p -/
def B23_T2p (T : F) : F :=
  nthF B23_T2p_n23 0 + (nthF B23_T2p_n23 1 + nthF B23_T2p_n23 2 * T) * T

/-- `src/common/boundaries.rs`:22 -/
def B23_p2T_n23 : List F := [0.10192970039326e-2, 0.57254459862746e3, 0.13918839778870e2]

/-- `src/common/boundaries.rs:21-24` B23_p2T -/
def B23_p2T (p : F) : F :=
  nthF B23_p2T_n23 1 + powf ((p - nthF B23_p2T_n23 2) / nthF B23_p2T_n23 0) 0.5

/-- `src/common/boundaries.rs`:34-49 -/
def h2p_sat_reg3_IJn : List (Int × Int × F) :=
  [ (0, 0, 0.600073641753024),
    (1, 1, -0.936203654849857e1),
    (1, 3, 0.246590798594147e2),
    (1, 4, -0.107014222858224e3),
    (1, 36, -0.915821315805768e14),
    (5, 3, -0.862332011700662e4),
    (7, 0, -0.235837344740032e2),
    (8, 24, 0.252304969384128e18),
    (14, 16, -0.389718771997719e19),
    (20, 16, -0.333775713645296e23),
    (22, 3, 0.356499469636328e11),
    (24, 18, -0.148547544720641e27),
    (28, 8, 0.330611514838798e19),
    (36, 24, 0.813641294467829e38) ]

/-- `src/common/boundaries.rs:32-60` h2p_sat_reg3 -/
def h2p_sat_reg3 (h : F) : F :=
  let hmin_Ps3 : F := pT2h_reg1 Ps_623 623.15
  let hmax_Ps3 : F := pT2h_reg2 Ps_623 623.15
  if h <. hmin_Ps3 || h >. hmax_Ps3 then
    ofI32 INVALID_H
  else
  let nu : F := h / 2600.0
  let suma : F := poly_powi (nu - 1.02) (nu - 0.608) h2p_sat_reg3_IJn
  22.0 * suma

/-- `src/common/boundaries.rs`:67-78 -/
def s2p_sat_reg3_IJn : List (Int × Int × F) :=
  [ (0, 0, 0.639767553612785),
    (1, 1, -0.129727445396014e2),
    (1, 32, -0.224595125848403e16),
    (4, 7, 0.177466741801846e7),
    (12, 4, 0.717079349571538e10),
    (12, 14, -0.378829107169011e18),
    (16, 36, -0.955586736431328e35),
    (24, 10, 0.187269814676188e24),
    (28, 0, 0.119254746466473e12),
    (32, 18, 0.110649277244882e37) ]

/-- `src/common/boundaries.rs:66-90` s2p_sat_reg3 -/
def s2p_sat_reg3 (s : F) : F :=
  let smin_Ps3 : F := pT2s_reg1 Ps_623 623.15
  let smax_Ps3 : F := pT2s_reg2 Ps_623 623.15
  if s <. smin_Ps3 || s >. smax_Ps3 then
    ofI32 INVALID_S
  else
  let sigma : F := s / 5.2
  let suma : F := poly_powi (sigma - 1.03) (sigma - 0.699) s2p_sat_reg3_IJn
  22.0 * suma

/-- `src/common/boundaries.rs`:97-125 -/
def hs_region_h1_s_IJn : List (Int × Int × F) :=
  [ (0, 14, 0.332171191705237e0),
    (0, 36, 0.611217706323496e-3),
    (1, 3, -0.882092478906822e1),
    (1, 16, -0.455628192543250e0),
    (2, 0, -0.263483840850452e-4),
    (2, 5, -0.223949661148062e2),
    (3, 4, -0.428398660164013e1),
    (3, 36, -0.616679338856916e0),
    (4, 4, -0.146823031104040e2),
    (4, 16, 0.284523138727299e3),
    (4, 24, -0.113398503195444e3),
    (5, 18, 0.115671380760859e4),
    (5, 24, 0.395551267359325e3),
    (7, 1, -0.154891257229285e1),
    (8, 4, 0.194486637751291e2),
    (12, 2, -0.357915139457043e1),
    (12, 4, -0.335369414148819e1),
    (14, 1, -0.664426796332460e0),
    (14, 22, 0.323321885383934e5),
    (16, 10, 0.331766744667084e4),
    (20, 12, -0.223501257931087e5),
    (20, 28, 0.573953875852936e7),
    (22, 8, 0.173226193407919e3),
    (24, 3, -0.363968822121321e-1),
    (28, 0, 0.834596332878346e-6),
    (32, 6, 0.503611916682674e1),
    (32, 8, 0.655444787064505e2) ]

/-- `src/common/boundaries.rs:96-135` hs_region_h1_s -/
def hs_region_h1_s (s : F) : F :=
  if s <. -1.545495919e-4 || s >. 3.77828134 then
    ofI32 INVALID_S
  else
  let sigma : F := s / 3.8
  let suma : F := poly_powi (sigma - 1.09) (sigma + 0.366e-4) hs_region_h1_s_IJn
  1700.0 * suma

/-- `src/common/boundaries.rs`:140-160 -/
def hs_region_h3a_s_IJn : List (Int × Int × F) :=
  [ (0, 1, 0.822673364673336e0),
    (0, 4, 0.181977213534479e0),
    (0, 10, -0.112000260313624e-1),
    (0, 16, -0.746778287048033e-3),
    (2, 1, -0.179046263257381e0),
    (3, 36, 0.424220110836657e-1),
    (4, 3, -0.341355823438768e0),
    (4, 16, -0.209881740853565e1),
    (5, 20, -0.822477343323596e1),
    (5, 36, -0.499684082076008e1),
    (6, 4, 0.191413958471069e0),
    (7, 2, 0.581062241093136e-1),
    (7, 28, -0.165505498701029e4),
    (7, 32, 0.158870443421201e4),
    (10, 14, -0.850623535172818e2),
    (10, 32, -0.317714386511207e5),
    (10, 36, -0.945890406632871e5),
    (32, 0, -0.139273847088690e-5),
    (32, 6, 0.631052532240980e0) ]

/-- `src/common/boundaries.rs:139-169` hs_region_h3a_s -/
def hs_region_h3a_s (s : F) : F :=
  if s <. 3.77828134 || s >. SC_WATER then
    ofI32 INVALID_S
  else
  let sigma : F := s / 3.8
  let suma : F := poly_powi (sigma - 1.09) (sigma + 0.366e-4) hs_region_h3a_s_IJn
  1700.0 * suma

/-- `src/common/boundaries.rs`:174-205 -/
def hs_region_h2ab_s_IJn : List (Int × Int × F) :=
  [ (1, 8, -0.524581170928788e3),
    (1, 24, -0.926947218142218e7),
    (2, 4, -0.237385107491666e3),
    (2, 32, 0.210770155812776e11),
    (4, 1, -0.239494562010986e2),
    (4, 2, 0.221802480294197e3),
    (7, 7, -0.510472533393438e7),
    (8, 5, 0.124981396109147e7),
    (8, 12, 0.200008436996201e10),
    (10, 1, -0.815158509791035e3),
    (12, 0, -0.157612685637523e3),
    (12, 7, -0.114200422332791e11),
    (18, 10, 0.662364680776872e16),
    (20, 12, -0.227622818296144e19),
    (24, 32, -0.171048081348406e32),
    (28, 8, 0.660788766938091e16),
    (28, 12, 0.166320055886021e23),
    (28, 20, -0.218003784381501e30),
    (28, 22, -0.787276140295618e30),
    (28, 24, 0.151062329700346e32),
    (32, 2, 0.795732170300541e7),
    (32, 7, 0.131957647355347e16),
    (32, 12, -0.325097068299140e24),
    (32, 14, -0.418600611419248e26),
    (32, 24, 0.297478906557467e35),
    (36, 10, -0.953588761745473e20),
    (36, 12, 0.166957699620939e25),
    (36, 20, -0.175407764869978e33),
    (36, 22, 0.347581490626396e35),
    (36, 28, -0.710971318427851e39) ]

/-- `src/common/boundaries.rs:173-216` hs_region_h2ab_s -/
def hs_region_h2ab_s (s : F) : F :=
  if s <. 5.85 || s >. 9.155759395 then
    ofI32 INVALID_S
  else
  let sigma1 : F := s / 5.21
  let sigma2 : F := s / 9.2 - 0.524
  let suma : F := poly_powi (1.0 / sigma1 - 0.513) sigma2 hs_region_h2ab_s_IJn
  2800.0 * fexp suma

/-- `src/common/boundaries.rs`:221-238 -/
def hs_region_h2c3b_s_IJn : List (Int × Int × F) :=
  [ (0, 0, 0.104351280732769e1),
    (0, 3, -0.227807912708513e1),
    (0, 4, 0.180535256723202e1),
    (1, 0, 0.420440834792042e0),
    (1, 12, -0.105721244834660e6),
    (5, 36, 0.436911607493884e25),
    (6, 12, -0.328032702839753e12),
    (7, 16, -0.678686760804270e16),
    (8, 2, 0.743957464645363e4),
    (8, 20, -0.356896445355761e20),
    (12, 32, 0.167590585186801e32),
    (16, 36, -0.355028625419105e38),
    (22, 2, 0.396611982166538e12),
    (22, 32, -0.414716268484468e41),
    (24, 7, 0.359080103867382e19),
    (36, 20, -0.116994334851995e41) ]

/-- `src/common/boundaries.rs:220-248` hs_region_h2c3b_s -/
def hs_region_h2c3b_s (s : F) : F :=
  if s <. SC_WATER || s >. 5.85 then
    ofI32 INVALID_S
  else
  let sigma : F := s / 5.9
  let suma : F := poly_powi (sigma - 1.02) (sigma - 0.726) hs_region_h2c3b_s_IJn
  2800.0 * powi suma 4

/-- `src/common/boundaries.rs`:253-260 -/
def hs_region_h13_s_IJn : List (Int × Int × F) :=
  [ (0, 0, 0.913965547600543e0),
    (1, -2, -0.430944856041991e-4),
    (1, 2, 0.603235694765419e2),
    (3, -12, 0.117518273082168e-17),
    (5, -4, 0.220000904781292e0),
    (6, -3, -0.690815545851641e2) ]

/-- `src/common/boundaries.rs:252-269` hs_region_h13_s -/
def hs_region_h13_s (s : F) : F :=
  if s <. 3.397782955 || s >. 3.77828134 then
    ofI32 INVALID_S
  else
  let sigma : F := s / 3.8
  let suma : F := poly_powi (sigma - 0.884) (sigma - 0.864) hs_region_h13_s_IJn
  1700.0 * suma

/-- `src/common/boundaries.rs`:275-301 -/
def hs_region_t_hs_IJn : List (Int × Int × F) :=
  [ (-12, 10, 0.629096260829810e-3),
    (-10, 8, -0.823453502583165e-3),
    (-8, 3, 0.515446951519474e-7),
    (-4, 4, -0.117565945784945e1),
    (-3, 3, 0.348519684726192e1),
    (-2, -6, -0.507837382408313e-11),
    (-2, 2, -0.284637670005479e1),
    (-2, 3, -0.236092263939673e1),
    (-2, 4, 0.601492324973779e1),
    (0, 0, 0.148039650824546e1),
    (1, -3, 0.360075182221907e-3),
    (1, -2, -0.126700045009952e-1),
    (1, 10, -0.122184332521413e7),
    (3, -2, 0.149276502463272e0),
    (3, -1, 0.698733471798484e0),
    (5, -5, -0.252207040114321e-1),
    (6, -6, 0.147151930985213e-1),
    (6, -3, -0.108618917681849e1),
    (8, -8, -0.936875039816322e-3),
    (8, -2, 0.819877897570217e2),
    (8, -1, -0.182041861521835e3),
    (12, -12, 0.261907376402688e-5),
    (12, -1, -0.291626417025961e5),
    (14, -12, 0.140660774926165e-4),
    (14, 1, 0.783237062349385e7) ]

/-- `src/common/boundaries.rs:273-311` hs_region_t_hs -/
def hs_region_t_hs (h : F) (s : F) : F :=
  if s <. 5.048096828 || s >. 5.260578707 || h <. 2.563592004e3 || h >. 2.812942061e3 then
    ofI32 INVALID_HS
  else
  let nu : F := h / 3000.0
  let sigma : F := s / 5.3
  let suma : F := poly_powi (nu - 0.727) (sigma - 0.864) hs_region_t_hs_IJn
  900.0 * suma

end If97
