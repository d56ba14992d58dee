import Verif.Model.Num

namespace If97

/-- `src/r3/region3_v_subregion_pT.rs:14-15` struct para: the scaling
parameters of one region 3 sub-region equation -/
structure Para (F : Type) where
  PS : F
  TS : F
  VS : F
  a : F
  b : F
  c : F
  d : F
  e : F

/-- `src/common/propertry_pairs.rs:33-36` enum PAIRS -/
inductive PAIRS where
  | pT
  | Td
  deriving DecidableEq, Repr

end If97
