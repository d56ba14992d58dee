/-
Generated by tools/rs2lean.py from the Rust sources cited below.
Number type `F` is abstract; see Verif/Model/Num.lean for the conventions.
-/
import Verif.Model.Num
set_option linter.unusedVariables false

namespace If97
open Flt
variable {F : Type} [Add F] [Sub F] [Mul F] [Div F] [Neg F] [OfScientific F] [Flt F]

/-! ### src/common/constant.rs -/

/-- `src/common/constant.rs`:4 -/
def INVALID_VALUE : Int := -9999

/-- `src/common/constant.rs`:5 -/
def INVALID_OUTID : Int := -1000

/-- `src/common/constant.rs`:6 -/
def INVALID_P : Int := -2100

/-- `src/common/constant.rs`:7 -/
def INVALID_T : Int := -2101

/-- `src/common/constant.rs`:8 -/
def INVALID_S : Int := -2102

/-- `src/common/constant.rs`:9 -/
def INVALID_H : Int := -2103

/-- `src/common/constant.rs`:10 -/
def INVALID_PT : Int := -2201

/-- `src/common/constant.rs`:11 -/
def INVALID_HS : Int := -2202

/-- `src/common/constant.rs`:14 -/
def FLOAT_ERROR : F := 1.0e-6

/-- `src/common/constant.rs`:17 -/
def K : F := 273.15

/-- `src/common/constant.rs`:18 -/
def RGAS_WATER : F := 0.461526

/-- `src/common/constant.rs`:21 -/
def TC_WATER : F := 647.096

/-- `src/common/constant.rs`:22 -/
def PC_WATER : F := 22.064

/-- `src/common/constant.rs`:23 -/
def DC_WATER : F := 322.0

/-- `src/common/constant.rs`:24 -/
def SC_WATER : F := 4.41202148223476

/-- `src/common/constant.rs`:25 -/
def HC_WATER : F := 2.087546845e3

/-- `src/common/constant.rs`:28 -/
def Pt : F := 611.657e-6

/-- `src/common/constant.rs`:29 -/
def Tt : F := 273.16

/-- `src/common/constant.rs`:30 -/
def st_water : F := 5.85

/-- `src/common/constant.rs`:31 -/
def ht_water : F := 0.611783

/-- `src/common/constant.rs`:36 -/
def Ps_623 : F := 16.5291642526045

/-- `src/common/constant.rs`:38 -/
def P_MIN : F := 0.000611212677444

/-- `src/common/constant.rs`:39 -/
def V_MAX : F := 1.0e10

/-- `src/common/constant.rs`:40 -/
def V_MIN : F := 0.00095

/-- `src/common/constant.rs`:41 -/
def H_MAX : F := 7376.99

/-- `src/common/constant.rs`:42 -/
def H_MIN : F := -0.1

/-- `src/common/constant.rs`:43 -/
def S_MAX : F := 18.992

/-- `src/common/constant.rs`:44 -/
def S_MIN : F := -0.008583

/-- `src/common/constant.rs`:47 -/
def P01 : F := 16.53

/-- `src/common/constant.rs`:48 -/
def T01 : F := 1386.0

/-- `src/common/constant.rs`:49 -/
def T_MAX1 : F := 623.15

/-- `src/common/constant.rs`:50 -/
def T_MIN1 : F := 273.15

/-- `src/common/constant.rs`:51 -/
def P_MAX1 : F := 100.00

/-- `src/common/constant.rs`:52 -/
def P_MIN1 : F := 0.000611212677444

/-- `src/common/constant.rs`:55 -/
def T02 : F := 540.0

/-- `src/common/constant.rs`:56 -/
def P02 : F := 1.0

/-- `src/common/constant.rs`:57 -/
def T_MAX2 : F := 1073.15

/-- `src/common/constant.rs`:58 -/
def T_MIN2 : F := 273.15

/-- `src/common/constant.rs`:59 -/
def P_MAX2 : F := 100.00

/-- `src/common/constant.rs`:60 -/
def P_MIN2 : F := 1.0e-8

/-- `src/common/constant.rs`:63 -/
def D03 : F := 322.0

/-- `src/common/constant.rs`:64 -/
def T03 : F := 647.096

/-- `src/common/constant.rs`:65 -/
def T_MAX3 : F := 863.15

/-- `src/common/constant.rs`:66 -/
def T_MIN3 : F := 623.15

/-- `src/common/constant.rs`:67 -/
def P_MIN3 : F := 16.5291643

/-- `src/common/constant.rs`:68 -/
def P_MAX3 : F := 100.0

/-- `src/common/constant.rs`:71 -/
def T_MAX4 : F := 647.096

/-- `src/common/constant.rs`:72 -/
def T_MIN4 : F := 273.15

/-- `src/common/constant.rs`:73 -/
def P_MAX4 : F := 22.064

/-- `src/common/constant.rs`:74 -/
def P_MIN4 : F := 0.000611212677444

/-- `src/common/constant.rs`:75 -/
def H_MAX4 : F := 2803.2738880203456

/-- `src/common/constant.rs`:76 -/
def H_MIN4 : F := 0.38039218566765925

/-- `src/common/constant.rs`:77 -/
def S_MAX4 : F := 9.153081306725117

/-- `src/common/constant.rs`:78 -/
def S_MIN4 : F := 0.33567511183921145

/-- `src/common/constant.rs`:81 -/
def T05 : F := 1000.0

/-- `src/common/constant.rs`:82 -/
def P05 : F := 1.0

/-- `src/common/constant.rs`:83 -/
def T_MAX5 : F := 2273.15

/-- `src/common/constant.rs`:84 -/
def T_MIN5 : F := 1073.15

/-- `src/common/constant.rs`:85 -/
def P_MAX5 : F := 50.0

/-- `src/common/constant.rs`:86 -/
def P_MIN5 : F := 0.000611212677444

/-! ### src/common/propertry_id.rs -/

/-- `src/common/propertry_id.rs`:13 -/
def OP : Int := 0

/-- `src/common/propertry_id.rs`:15 -/
def OT : Int := 1

/-- `src/common/propertry_id.rs`:17 -/
def OD : Int := 2

/-- `src/common/propertry_id.rs`:19 -/
def OV : Int := 3

/-- `src/common/propertry_id.rs`:21 -/
def OH : Int := 4

/-- `src/common/propertry_id.rs`:23 -/
def OS : Int := 5

/-- `src/common/propertry_id.rs`:25 -/
def OE : Int := 6

/-- `src/common/propertry_id.rs`:27 -/
def OU : Int := 7

/-- `src/common/propertry_id.rs`:29 -/
def OCP : Int := 8

/-- `src/common/propertry_id.rs`:31 -/
def OCV : Int := 9

/-- `src/common/propertry_id.rs`:33 -/
def OW : Int := 10

/-- `src/common/propertry_id.rs`:35 -/
def OKS : Int := 11

/-- `src/common/propertry_id.rs`:37 -/
def OF : Int := 12

/-- `src/common/propertry_id.rs`:39 -/
def OG : Int := 13

/-- `src/common/propertry_id.rs`:41 -/
def OZ : Int := 14

/-- `src/common/propertry_id.rs`:43 -/
def OX : Int := 15

/-- `src/common/propertry_id.rs`:45 -/
def OR : Int := 16

/-- `src/common/propertry_id.rs`:47 -/
def OEC : Int := 17

/-- `src/common/propertry_id.rs`:49 -/
def OKT : Int := 18

/-- `src/common/propertry_id.rs`:51 -/
def ODVDT : Int := 19

/-- `src/common/propertry_id.rs`:53 -/
def ODVDP : Int := 20

/-- `src/common/propertry_id.rs`:55 -/
def ODPDT : Int := 21

/-- `src/common/propertry_id.rs`:57 -/
def OIJTC : Int := 22

/-- `src/common/propertry_id.rs`:59 -/
def OJTC : Int := 23

/-- `src/common/propertry_id.rs`:61 -/
def ODV : Int := 24

/-- `src/common/propertry_id.rs`:63 -/
def OKV : Int := 25

/-- `src/common/propertry_id.rs`:65 -/
def OTC : Int := 26

/-- `src/common/propertry_id.rs`:67 -/
def OTD : Int := 27

/-- `src/common/propertry_id.rs`:69 -/
def OPR : Int := 28

/-- `src/common/propertry_id.rs`:71 -/
def OST : Int := 29

/-- `src/common/propertry_id.rs`:73 -/
def OSDC : Int := 30

/-- `src/common/propertry_id.rs`:75 -/
def OPC : Int := 31

/-- `src/common/propertry_id.rs`:77 -/
def OBETAP : Int := 32

/-- `src/common/propertry_id.rs`:79 -/
def OFI : Int := 33

/-- `src/common/propertry_id.rs`:81 -/
def OFU : Int := 34

/-- `src/common/propertry_id.rs`:83 -/
def OALFAP : Int := 35

end If97
