import Verif.Lemmas.Tm.Comp.Region3st
import Verif.Lemmas.Tm.Comp.Scales

/-! The computations that the kernel runs, without Mathlib: which states of region 3 lie between the enthalpies and
entropies at its borders with regions 1, 2 and 4.  What they establish is in `Lemmas/Tm/Leaf3r.lean`. -/

namespace If97.Tm

/-- a band of pressures, in kPa, with bounds in p/100 of the enthalpy and entropy of region 1 at 623.15 K (from above) and
of region 2 at B23 (from below), and two slopes -/
structure Bnd where
  lo : Nat
  hi : Nat
  h13 : Q6
  h32 : Q6
  s13 : Q6
  s32 : Q6
  nq : Co
  nv : Co

def bd0 : Bnd :=
  ⟨22064, 30000,
    ⟨⟨false, 10699191774253, 5000000000⟩, ⟨true, 66602802551187, 10000000000⟩, ⟨false, 189946323902193, 5000000000⟩, ⟨true, 296762585396779, 2500000000⟩, ⟨false, 967394030635589, 5000000000⟩, ⟨true, 40397693771911, 312500000⟩⟩,
    ⟨⟨true, 78051397129, 312500000⟩, ⟨false, 97019529153691, 2000000000⟩, ⟨true, 1624363483785169, 5000000000⟩, ⟨false, 2717681055668919, 2500000000⟩, ⟨true, 4578119678419861, 2500000000⟩, ⟨false, 155832365403457, 125000000⟩⟩,
    ⟨⟨false, 45860396963, 10000000000⟩, ⟨true, 111146878721, 10000000000⟩, ⟨false, 123645764609, 2000000000⟩, ⟨true, 1928172225437, 10000000000⟩, ⟨false, 1570008685353, 5000000000⟩, ⟨true, 2096804672781, 10000000000⟩⟩,
    ⟨⟨false, 11609754579, 10000000000⟩, ⟨false, 735521441319, 10000000000⟩, ⟨true, 5111671988641, 10000000000⟩, ⟨false, 17413136493091, 10000000000⟩, ⟨true, 14838025432493, 5000000000⟩, ⟨false, 10180790321589, 5000000000⟩⟩, ⟨false, 0, 1⟩, ⟨false, 0, 1⟩⟩

def bd1 : Bnd :=
  ⟨30000, 45000,
    ⟨⟨false, 3757177923351, 2000000000⟩, ⟨true, 4537887943517, 2000000000⟩, ⟨false, 82377673194211, 10000000000⟩, ⟨true, 171993382287693, 10000000000⟩, ⟨false, 7673723962073, 400000000⟩, ⟨true, 1106856827379, 125000000⟩⟩,
    ⟨⟨false, 4302907654541, 2000000000⟩, ⟨false, 15063081498503, 2000000000⟩, ⟨true, 54299655737897, 1250000000⟩, ⟨false, 1152929949305337, 10000000000⟩, ⟨true, 181476133548787, 1250000000⟩, ⟨false, 714255927481893, 10000000000⟩⟩,
    ⟨⟨false, 41618100499, 10000000000⟩, ⟨true, 39862455821, 10000000000⟩, ⟨false, 27086959857, 2000000000⟩, ⟨true, 281513094603, 10000000000⟩, ⟨false, 19588679899, 625000000⟩, ⟨true, 36126344771, 2500000000⟩⟩,
    ⟨⟨false, 10204317779, 2000000000⟩, ⟨false, 61547842209, 10000000000⟩, ⟨true, 14826347181, 312500000⟩, ⟨false, 1375308079513, 10000000000⟩, ⟨true, 452874600017, 2500000000⟩, ⟨false, 458184705211, 5000000000⟩⟩, ⟨false, 0, 1⟩, ⟨false, 0, 1⟩⟩

def bd2 : Bnd :=
  ⟨45000, 70000,
    ⟨⟨false, 17714166462483, 10000000000⟩, ⟨true, 314360730983, 312500000⟩, ⟨false, 5603932187659, 2500000000⟩, ⟨true, 28813508830311, 10000000000⟩, ⟨false, 2511164823357, 1250000000⟩, ⟨true, 729544638991, 1250000000⟩⟩,
    ⟨⟨false, 7750680431113, 2500000000⟩, ⟨true, 37471605308541, 10000000000⟩, ⟨false, 103196732961519, 10000000000⟩, ⟨true, 130934459152809, 10000000000⟩, ⟨false, 83862424169113, 10000000000⟩, ⟨true, 429984292959, 200000000⟩⟩,
    ⟨⟨false, 19932571601, 5000000000⟩, ⟨true, 19221623629, 10000000000⟩, ⟨false, 7502307569, 2000000000⟩, ⟨true, 11958750263, 2500000000⟩, ⟨false, 33257285327, 10000000000⟩, ⟨true, 4824007617, 5000000000⟩⟩,
    ⟨⟨false, 31204132397, 5000000000⟩, ⟨true, 38538726687, 5000000000⟩, ⟨false, 24980977083, 1250000000⟩, ⟨true, 16438434053, 625000000⟩, ⟨false, 88552227189, 5000000000⟩, ⟨true, 9673404901, 2000000000⟩⟩, ⟨false, 0, 1⟩, ⟨false, 0, 1⟩⟩

def bd3 : Bnd :=
  ⟨70000, 100000,
    ⟨⟨false, 17051874267399, 10000000000⟩, ⟨true, 1273087342821, 2500000000⟩, ⟨false, 927637693979, 1250000000⟩, ⟨true, 6055058725741, 10000000000⟩, ⟨false, 2734295091949, 10000000000⟩, ⟨true, 2082541961, 40000000⟩⟩,
    ⟨⟨false, 2682380266823, 1250000000⟩, ⟨false, 24405525428111, 10000000000⟩, ⟨true, 11302118691567, 2000000000⟩, ⟨false, 7395786774691, 1000000000⟩, ⟨true, 23300547467771, 5000000000⟩, ⟨false, 11418655989037, 10000000000⟩⟩,
    ⟨⟨false, 38770366309, 10000000000⟩, ⟨true, 11014044781, 10000000000⟩, ⟨false, 12743885863, 10000000000⟩, ⟨true, 10255182507, 10000000000⟩, ⟨false, 1151941793, 2500000000⟩, ⟨true, 874959023, 10000000000⟩⟩,
    ⟨⟨false, 48438021833, 10000000000⟩, ⟨false, 3255696683, 2000000000⟩, ⟨true, 2497218777, 500000000⟩, ⟨false, 17893196089, 2500000000⟩, ⟨true, 47296331481, 10000000000⟩, ⟨false, 11931086279, 10000000000⟩⟩, ⟨false, 0, 1⟩, ⟨false, 0, 1⟩⟩

def bd4 : Bnd :=
  ⟨16500, 18500,
    ⟨⟨false, 23918902555357, 5000000000⟩, ⟨true, 181189702537367, 2500000000⟩, ⟨false, 1747307971078297, 2500000000⟩, ⟨true, 8660102825163801, 2500000000⟩, ⟨false, 85189502415122, 9765625⟩, ⟨true, 2778035665796639, 312500000⟩⟩,
    ⟨⟨true, 2208360080724503, 5000000000⟩, ⟨false, 3785420197942507, 312500000⟩, ⟨true, 2587208033228851, 19531250⟩, ⟨false, 7088378548218537, 9765625⟩, ⟨true, 19454103669367312, 9765625⟩, ⟨false, 21386536007296876, 9765625⟩⟩,
    ⟨⟨false, 88589185281, 10000000000⟩, ⟨true, 1174824440891, 10000000000⟩, ⟨false, 176565537199, 156250000⟩, ⟨true, 55996661768837, 10000000000⟩, ⟨false, 141007045519189, 10000000000⟩, ⟨true, 143692829917641, 10000000000⟩⟩,
    ⟨⟨true, 733527787667, 1000000000⟩, ⟨false, 100770261329643, 5000000000⟩, ⟨true, 2204451496109649, 10000000000⟩, ⟨false, 94378798708661, 78125000⟩, ⟨true, 4144550408698023, 1250000000⟩, ⟨false, 2278176829122193, 625000000⟩⟩, ⟨true, 13, 10⟩, ⟨true, 11, 5⟩⟩

def bd5 : Bnd :=
  ⟨18500, 22064,
    ⟨⟨false, 33129487842643, 10000000000⟩, ⟨true, 165794392181181, 5000000000⟩, ⟨false, 1390419489976909, 5000000000⟩, ⟨true, 6046890473200417, 5000000000⟩, ⟨false, 6693235027691381, 2500000000⟩, ⟨true, 187310394762787, 78125000⟩⟩,
    ⟨⟨true, 236439564485431, 10000000000⟩, ⟨false, 5908702342676399, 10000000000⟩, ⟨true, 6705694879480689, 1250000000⟩, ⟨false, 3835229911845947, 156250000⟩, ⟨true, 8831454422566287, 156250000⟩, ⟨false, 2044049370224549, 39062500⟩⟩,
    ⟨⟨false, 64813341291, 10000000000⟩, ⟨true, 539265882479, 10000000000⟩, ⟨false, 4497301098011, 10000000000⟩, ⟨true, 19549709510809, 10000000000⟩, ⟨false, 43270301200681, 10000000000⟩, ⟨true, 38745389207317, 10000000000⟩⟩,
    ⟨⟨true, 377976251103, 10000000000⟩, ⟨false, 9767424101887, 10000000000⟩, ⟨true, 89036437153867, 10000000000⟩, ⟨false, 81611353380943, 2000000000⟩, ⟨true, 117549831343691, 1250000000⟩, ⟨false, 435487637424863, 5000000000⟩⟩, ⟨true, 19, 10⟩, ⟨true, 3, 1⟩⟩

/-! the saturation pressure by enthalpy, in 5/2 of its variables -/

def chxP34h : List (Nat × Nat) := [(0, 0), (1, 0), (1, 0), (2, 0), (4, 0), (1, 1), (6, 3), (1, 0), (7, 0), (8, 0), (5, 2), (6, 0)]

def chyP34h : List (Nat × Nat) := [(0, 0), (1, 0), (2, 0), (0, 0), (0, 0), (4, 0), (2, 1), (1, 1)]

def tbP34h : List (Nat × List (Nat × Co)) :=
  [(13, [(9, ⟨false, 9376150652391, 15625000000000⟩)]),
  (12, [(8, ⟨true, 936203654849857, 625000000000000⟩), (6, ⟨false, 246590798594147, 390625000000000⟩), (5, ⟨true, 6688388928639, 6103515625000⟩), (0, ⟨true, 62934761605847383170613248, 363797880709171295166015625⟩)]),
  (9, [(6, ⟨true, 431166005850331, 76293945312500⟩)]),
  (8, [(9, ⟨true, 3684958511563, 95367431640625⟩)]),
  (7, [(1, ⟨false, 8669132736984888171823104, 186264514923095703125⟩)]),
  (6, [(3, ⟨true, 6695317521469934766391296, 1490116119384765625⟩)]),
  (4, [(3, ⟨true, 5871844451555767354325467136, 37252902984619140625⟩)]),
  (3, [(6, ⟨false, 747633575746764537856, 186264514923095703125⟩)]),
  (2, [(2, ⟨true, 2675994668202723591718902431744, 931322574615478515625⟩)]),
  (1, [(4, ⟨false, 363511204841895967219253248, 23283064365386962890625⟩)]),
  (0, [(1, ⟨false, 7869055750294624162420619700842876895232, 72759576141834259033203125⟩)])]

/-! the saturation pressure by entropy, in 5/2 of its variables -/

def chxP34s : List (Nat × Nat) := [(0, 0), (0, 0), (1, 0), (0, 0), (2, 0), (1, 1), (4, 0), (5, 0)]

def chyP34s : List (Nat × Nat) := [(0, 0), (0, 0), (2, 1), (1, 0), (1, 0), (3, 0), (4, 0), (1, 0), (6, 0)]

def tbP34s : List (Nat × List (Nat × Co)) :=
  [(9, [(10, ⟨false, 127953510722557, 200000000000000⟩)]),
  (8, [(9, ⟨true, 64863722698007, 31250000000000⟩), (1, ⟨true, 3858514881439580555313152, 23283064365386962890625⟩)]),
  (6, [(5, ⟨false, 1419733934414768, 19073486328125⟩)]),
  (4, [(7, ⟨false, 1468578507922509824, 476837158203125⟩), (3, ⟨true, 203382328257972673708032, 11920928955078125⟩)]),
  (3, [(0, ⟨true, 4512630775598093073556981466989068288, 23283064365386962890625⟩)]),
  (2, [(4, ⟨false, 1647242710143402577812783104, 298023223876953125⟩)]),
  (1, [(10, ⟨false, 4001525280986508558336, 4656612873077392578125⟩)]),
  (0, [(2, ⟨false, 522526438214981677200057357012303872, 37252902984619140625⟩)])]

/-- 1/τ, p, h and s -/
noncomputable def hs3 (P : Par) (l : LogC) (d t : TM) (k : TM → TM → TM → TM → Bool) : Bool :=
  st3t P d t fun xs ys c ti p => poly P xs ys (fun a => mul P t a fun m =>
    lin P [m, c] [(0, ⟨false, 1, 1⟩), (1, ⟨false, 1, 1⟩)] fun e => refresh P e fun e => mul P e ti fun e =>
    lin P [e] [(0, ⟨false, 18665726781, 62500000⟩)] fun h => refresh P h fun h =>
    poly P xs ys (fun f => logT P l d fun l =>
      lin P [m, f, l] [(0, ⟨false, 461526, 1000000⟩), (1, ⟨true, 461526, 1000000⟩),
        (2, ⟨true, 2459488213989745419, 5000000000000000000⟩)] fun s => refresh P s fun s => k ti p h s)
      tz3 (nat_lit 0) (nat_lit 0) (nat_lit 0) (nat_lit 0)) tj3 (nat_lit 0) (nat_lit 0) (nat_lit 0) (nat_lit 0)

/-- is z > q(p/100)? -/
noncomputable def above (P : Par) (q : Q6) (x z : TM) : Bool :=
  polyB P q x fun w => lin P [z, w] [(0, ⟨false, 1, 1⟩), (1, ⟨true, 1, 1⟩)] fun w => pos P w
/-- is z < q(p/100)? -/
noncomputable def below (P : Par) (q : Q6) (x z : TM) : Bool :=
  polyB P q x fun w => lin P [w, z] [(0, ⟨false, 1, 1⟩), (1, ⟨true, 1, 1⟩)] fun w => pos P w
/-- is z + λ g < q(p/100), where λ = l0 + l1 δ + l2 δ² is positive? -/
noncomputable def belowL (P : Par) (q : Q6) (l2 l1 l0 : Co) (d2 d g x z : TM) : Bool :=
  lin P [d2, d, tone P] [(0, l2), (1, l1), (2, l0)] fun l => gd (pos P l) <| mul P l g fun m =>
  polyB P q x fun w => lin P [w, z, m] [(0, ⟨false, 1, 1⟩), (1, ⟨true, 1, 1⟩), (2, ⟨true, 1, 1⟩)] fun w => pos P w

noncomputable def x100 (P : Par) (p : TM) (k : TM → Bool) : Bool := lin P [p] [(0, ⟨false, 1, 100⟩)] k

noncomputable def ck13 (P : Par) (B : Bnd) (x h s : TM) : Bool := gd (above P B.h13 x h) (above P B.s13 x s)
noncomputable def ck32 (P : Par) (B : Bnd) (x h s : TM) : Bool := gd (below P B.h32 x h) (below P B.s32 x s)
noncomputable def ck32L (P : Par) (B : Bnd) (d g x h s : TM) : Bool :=
  mul P d d fun d2 =>
  gd (belowL P B.h32 ⟨false, 14323329, 200000⟩ ⟨true, 183436183, 1000000⟩ ⟨false, 31647759, 250000⟩ d2 d g x h)
    (belowL P B.s32 ⟨false, 63121, 500000⟩ ⟨true, 308943, 1000000⟩ ⟨false, 100419, 500000⟩ d2 d g x s)

/-- p - pB23(647.096/τ + 0.05) -/
noncomputable def pBg (P : Par) (ti p : TM) (k : TM → Bool) : Bool :=
  mul P ti ti fun t2 => lin P [t2, ti, tone P] [(0, ⟨false, 33344807036256208198847, 78125000000000000000⟩), (1, ⟨true, 11800241027935021672686919854213, 15625000000000000000000000000⟩), (2, ⟨false, 4349918744231650735293863328186250431527, 12500000000000000000000000000000000000⟩)] fun b =>
  lin P [p, b] [(0, ⟨false, 1, 1⟩), (1, ⟨true, 1, 1⟩)] fun g => refresh P g k

/-- does the box lie outside the band? -/
noncomputable def kBnd (P : Par) (B : Bnd) (p : TM) (k : Bool) : Bool :=
  orB (lin P [tone P, p] [(0, ⟨false, B.lo, 1000⟩), (1, ⟨true, 1, 1⟩)] fun w => pos P w)
  (orB (lin P [tone P, p] [(0, ⟨true, B.hi, 1000⟩), (1, ⟨false, 1, 1⟩)] fun w => pos P w) k)

/-! above 22.064 MPa -/

/-- outside the band, or beyond B23? -/
noncomputable def kRec (P : Par) (B : Bnd) (d t : TM) : Bool :=
  st3t P d t fun _ _ _ ti p => kBnd P B p (pBg P ti p fun g => npos P g)
noncomputable def bRec (P : Par) (l : LogC) (B : Bnd) (d t : TM) : Bool :=
  hs3 P l d t fun _ p h s => x100 P p fun x => gd (ck13 P B x h s) (ck32 P B x h s)
/-- near B23 -/
noncomputable def bRecL (P : Par) (l : LogC) (B : Bnd) (d t : TM) : Bool :=
  hs3 P l d t fun ti p h s => x100 P p fun x => gd (ck13 P B x h s) (pBg P ti p fun g => ck32L P B d g x h s)
noncomputable def vRec (l : LogC) (B : Bnd) (xr yr : Nat) (t : Tr4) : Nat → Nat → Nat → Nat → Bool :=
  verify4 (leafB P64 (kRec P64 B) xr yr) (leafB P64 (bRec P64 l B) xr yr) (leafB P64 (bRecL P64 l B) xr yr)
    (leafB P64 (kRec P64 B) xr yr) xr yr t

/-! below 22.064 MPa -/

noncomputable def p34h (P : Par) (h : TM) (k : TM → Bool) : Bool :=
  lin P [h, tone P] [(0, ⟨false, 1, 1040⟩), (1, ⟨true, 51, 20⟩)] fun X => refresh P X fun X =>
  lin P [h, tone P] [(0, ⟨false, 1, 1040⟩), (1, ⟨true, 38, 25⟩)] fun Y => refresh P Y fun Y =>
  back P chxP34h chyP34h tbP34h X Y fun r => lin P [r] [(0, ⟨false, 22, 1⟩)] k
noncomputable def p34s (P : Par) (s : TM) (k : TM → Bool) : Bool :=
  lin P [s, tone P] [(0, ⟨false, 25, 52⟩), (1, ⟨true, 103, 40⟩)] fun X => refresh P X fun X =>
  lin P [s, tone P] [(0, ⟨false, 25, 52⟩), (1, ⟨true, 699, 400⟩)] fun Y => refresh P Y fun Y =>
  back P chxP34s chyP34s tbP34s X Y fun r => lin P [r] [(0, ⟨false, 22, 1⟩)] k

/-- is p above the saturation pressure by enthalpy and by entropy? -/
noncomputable def ck34 (P : Par) (p h s : TM) : Bool :=
  gd (p34h P h fun z => lin P [p, z] [(0, ⟨false, 1, 1⟩), (1, ⟨true, 1, 1⟩)] fun w => pos P w)
    (p34s P s fun z => lin P [p, z] [(0, ⟨false, 1, 1⟩), (1, ⟨true, 1, 1⟩)] fun w => pos P w)
/-- w > 0 or w > n g? -/
noncomputable def posN (P : Par) (n : Co) (g w : TM) : Bool :=
  orB (pos P w) (lin P [w, g] [(0, ⟨false, 1, 1⟩), (1, n)] fun w => pos P w)
noncomputable def ck34N (P : Par) (n : Co) (g p h s : TM) : Bool :=
  gd (p34h P h fun z => lin P [p, z] [(0, ⟨false, 1, 1⟩), (1, ⟨true, 1, 1⟩)] fun w => posN P n g w)
    (p34s P s fun z => lin P [p, z] [(0, ⟨false, 1, 1⟩), (1, ⟨true, 1, 1⟩)] fun w => posN P n g w)

/-- p less a minorant of the saturation pressure 0.1 K higher, and 1/τ² -/
noncomputable def gLiq (P : Par) (ti p : TM) (k : TM → TM → Bool) : Bool :=
  mul P ti ti fun t2 => lin P [t2, ti, tone P] [(0, ⟨false, 107, 40⟩), (1, ⟨true, 949996161, 808870000⟩), (2, ⟨false, 27285476829571, 40891917306250⟩)] fun b =>
  mul P b b fun b => mul P b b fun b => lin P [p, b] [(0, ⟨false, 1, 1⟩), (1, ⟨true, 1, 1⟩)] fun g => refresh P g fun g => k t2 g
/-- a majorant of the saturation pressure 0.1 K lower, less p, and 1/τ² -/
noncomputable def gVap (P : Par) (ti p : TM) (k : TM → TM → Bool) : Bool :=
  mul P ti ti fun t2 => lin P [t2, ti, tone P] [(0, ⟨false, 107, 40⟩), (1, ⟨true, 951333661, 808870000⟩), (2, ⟨false, 436929606929497, 654270676900000⟩)] fun b =>
  mul P b b fun b => mul P b b fun b => lin P [p, b] [(0, ⟨true, 1, 1⟩), (1, ⟨false, 1, 1⟩)] fun g => refresh P g fun g => k t2 g

/-- outside the band, too close to saturation, or inside the dome? -/
noncomputable def kSubq (P : Par) (B : Bnd) (d t : TM) : Bool :=
  st3t P d t fun _ _ _ ti p => kBnd P B p <| gLiq P ti p fun t2 g => orB (npos P g) <|
  lin P [t2, ti, tone P, d] [(0, ⟨true, 6542706769, 15093750⟩), (1, ⟨false, 6300045769, 7546875⟩), (2, ⟨true, 6042291019, 15093750⟩), (3, ⟨true, 1, 1⟩)] fun w => pos P w
noncomputable def kSubw (P : Par) (B : Bnd) (d t : TM) : Bool :=
  st3t P d t fun _ _ _ ti p => kBnd P B p <| gVap P ti p fun _ g => orB (npos P g) <| pBg P ti p fun g => npos P g
noncomputable def kSubv (P : Par) (B : Bnd) (d t : TM) : Bool :=
  st3t P d t fun _ _ _ ti p => kBnd P B p <| gVap P ti p fun t2 g => orB (npos P g) <| orB (pBg P ti p fun g => npos P g) <|
  lin P [t2, ti, tone P, d] [(0, ⟨true, 6542706769, 15093750⟩), (1, ⟨false, 6300045769, 7546875⟩), (2, ⟨true, 6072478519, 15093750⟩), (3, ⟨false, 1, 1⟩)] fun w => pos P w

noncomputable def bSub (P : Par) (l : LogC) (B : Bnd) (d t : TM) : Bool :=
  hs3 P l d t fun _ p h s => x100 P p fun x => gd (ck13 P B x h s) (gd (ck34 P p h s) (ck32 P B x h s))
/-- near B23 -/
noncomputable def bSubL (P : Par) (l : LogC) (B : Bnd) (d t : TM) : Bool :=
  hs3 P l d t fun ti p h s => x100 P p fun x => gd (ck13 P B x h s) (gd (ck34 P p h s)
    (pBg P ti p fun g => ck32L P B d g x h s))
/-- near saturation -/
noncomputable def bSubq (P : Par) (l : LogC) (B : Bnd) (d t : TM) : Bool :=
  hs3 P l d t fun ti p h s => x100 P p fun x => gd (ck13 P B x h s) (gd (gLiq P ti p fun _ g => ck34N P B.nq g p h s)
    (ck32 P B x h s))
noncomputable def bSubv (P : Par) (l : LogC) (B : Bnd) (d t : TM) : Bool :=
  hs3 P l d t fun ti p h s => x100 P p fun x => gd (ck13 P B x h s) (gd (gVap P ti p fun _ g => ck34N P B.nv g p h s)
    (ck32 P B x h s))

noncomputable def vSubq (l : LogC) (B : Bnd) (xr yr : Nat) (t : Tr4) : Nat → Nat → Nat → Nat → Bool :=
  verify4 (leafB P64 (kSubq P64 B) xr yr) (leafB P64 (bSub P64 l B) xr yr) (leafB P64 (bSub P64 l B) xr yr)
    (leafB P64 (bSubq P64 l B) xr yr) xr yr t
noncomputable def vSubv (l : LogC) (B : Bnd) (xr yr : Nat) (t : Tr4) : Nat → Nat → Nat → Nat → Bool :=
  verify4 (leafB P64 (kSubv P64 B) xr yr) (leafB P64 (bSub P64 l B) xr yr) (leafB P64 (bSubL P64 l B) xr yr)
    (leafB P64 (bSubv P64 l B) xr yr) xr yr t
noncomputable def vSubw (l : LogC) (B : Bnd) (xr yr : Nat) (t : Tr4) : Nat → Nat → Nat → Nat → Bool :=
  verify4 (leafB P64 (kSubw P64 B) xr yr) (leafB P64 (bSub P64 l B) xr yr) (leafB P64 (bSubL P64 l B) xr yr)
    (leafB P64 (bSubv P64 l B) xr yr) xr yr t

/-! the borders -/

/-- region 1 at p and τ: are the enthalpy and the entropy below the bounds? -/
noncomputable def bE13 (P : Par) (B : Bnd) (p tau : TM) : Bool :=
  st1 P p tau fun xs ys => poly P xs ys (fun g => poly P xs ys (fun g0 => mul P g tau fun gy => x100 P p fun x =>
    lin P [g] [(0, ⟨false, 159918759, 250000⟩)] fun h => lin P [gy, g0] [(0, ⟨false, 230763, 500000⟩), (1, ⟨true, 230763, 500000⟩)] fun s =>
    gd (below P B.h13 x h) (below P B.s13 x s)) t01 (nat_lit 0) (nat_lit 0) (nat_lit 0) (nat_lit 0)) tg1 (nat_lit 0) (nat_lit 0) (nat_lit 0) (nat_lit 0)
/-- region 2 at 540 θ on B23: are the enthalpy and the entropy above the bounds? -/
noncomputable def bE32 (P : Par) (K : Scl) (l : LogC) (B : Bnd) (th _t : TM) : Bool :=
  Scl.rec (motive := fun _ => Bool) (fun xn xd yn yd t0 tg =>
  inv P 4 th fun tau => mul P th th fun x2 =>
  lin P [x2, th, tone P] [(0, ⟨false, 3715337579334327, 12500000000000⟩), (1, ⟨true, 3939252709491650143230857073, 6250000000000000000000000⟩), (2, ⟨false, 4350648203621117816130341264681250431527, 12500000000000000000000000000000000000⟩)] fun p => refresh P p fun p =>
  st2 P xn xd yn yd p tau fun xs ys ts => lin P ts ti2 fun g0 => lin P ts ti02 fun f0 =>
  poly P xs ys (fun gr => lin P [g0, gr] [(0, ⟨false, 1, 1⟩), (1, ⟨false, 1, 1⟩)] fun g => refresh P g fun g =>
    poly P xs ys (fun fr => logT P l p fun l => mul P tau g fun m => x100 P p fun x =>
      lin P [g] [(0, ⟨false, 6230601, 25000⟩)] fun h =>
      lin P [m, f0, fr, l] [(0, ⟨false, 230763, 500000⟩), (1, ⟨true, 230763, 500000⟩), (2, ⟨true, 230763, 500000⟩), (3, ⟨true, 230763, 500000⟩)] fun s =>
      gd (above P B.h32 x h) (above P B.s32 x s)) t0 (nat_lit 0) (nat_lit 0) (nat_lit 0) (nat_lit 0)) tg (nat_lit 0) (nat_lit 0) (nat_lit 0) (nat_lit 0)) K
noncomputable def vE13 (B : Bnd) (xr yr : Nat) (t : Tr4) : Nat → Nat → Nat → Nat → Bool :=
  verify4 (leafB P12 (bE13 P12 B) xr yr) never never never xr yr t
noncomputable def vE32 (K : Scl) (l : LogC) (B : Bnd) (xr yr : Nat) (t : Tr4) : Nat → Nat → Nat → Nat → Bool :=
  verify4 (leafB P64 (bE32 P64 K l B) xr yr) never never never xr yr t

def lcB0 : LogC := ⟨2603, 100, ⟨false, 3259249719006474007, 1000000000000000000⟩, 77, 500, 10011⟩
def lcB1 : LogC := ⟨75, 2, ⟨false, 3624340932976365131, 1000000000000000000⟩, 201, 1000, 12915⟩
def lcB2 : LogC := ⟨115, 2, ⟨false, 1012946236950826189, 250000000000000000⟩, 219, 1000, 28059⟩
def lcB3 : LogC := ⟨85, 1, ⟨false, 888530251298063291, 200000000000000000⟩, 89, 500, 10221⟩
def lcB4 : LogC := ⟨35, 2, ⟨false, 286220088092946837, 100000000000000000⟩, 59, 1000, 10001⟩
def lcB5 : LogC := ⟨507, 25, ⟨false, 1504817589361491207, 500000000000000000⟩, 89, 1000, 10001⟩

end If97.Tm
