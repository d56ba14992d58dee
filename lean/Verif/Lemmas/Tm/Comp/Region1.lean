import Verif.Lemmas.Tm.Comp.Engine

/-! The computations that the kernel runs, without Mathlib: the checks of region 1.  What they establish is in
`Lemmas/Taylor*.lean` and `Lemmas/Tm/`. -/

namespace If97.Tm

def chx1 : List (Nat × Nat) := [(0, 0), (1, 0), (2, 0), (3, 0), (2, 0), (4, 0), (6, 0), (1, 0), (7, 0), (4, 1), (10, 0), (11, 0), (12, 0)]

def chy1 : List (Nat × Nat) := [(1, 1), (2, 0), (3, 0), (4, 0), (5, 0), (3, 0), (7, 0), (2, 0), (9, 0), (9, 9), (10, 0), (11, 0), (12, 0), (13, 0), (14, 0), (15, 0), (16, 0), (17, 0), (18, 0), (19, 0), (10, 0), (21, 0), (1, 0), (23, 0), (24, 0), (25, 0), (12, 0), (27, 0), (28, 0), (29, 0), (30, 0)]

/-- γ_τ -/
def tg1 : List (Nat × List (Nat × Co)) :=
  [(14, [(20, ⟨true, 14632971213167, 50000000000000⟩), (21, ⟨false, 42274093584557, 50000000000000⟩), (31, ⟨false, 0, 1⟩), (33, ⟨false, 6771033833677, 2000000000000⟩), (32, ⟨true, 2993498855871, 1562500000000⟩), (30, ⟨false, 11829028884921, 25000000000000⟩), (29, ⟨true, 16616417199501, 250000000000000⟩), (28, ⟨false, 5075914373973, 1250000000000000⟩)]),
  (13, [(13, ⟨true, 63717930278559, 25000000000000000⟩), (15, ⟨false, 212472055480559, 50000000000000000⟩), (21, ⟨false, 18990068218419, 1000000000000000⟩), (31, ⟨false, 0, 1⟩), (33, ⟨true, 10920858587707, 500000000000000⟩), (30, ⟨true, 15851507390979, 100000000000000000⟩)]),
  (12, [(19, ⟨false, 141552963219801, 100000000000000000⟩), (31, ⟨false, 0, 1⟩), (33, ⟨false, 47661393906987, 1000000000000000000⟩), (30, ⟨true, 66212767996269, 5000000000000000000⟩), (23, ⟨true, 617907468529549, 50000000000000000000000000000⟩)]),
  (11, [(18, ⟨false, 15839822422527, 125000000000000000⟩), (31, ⟨false, 0, 1⟩), (27, ⟨true, 255615384360309, 50000000000000000000000⟩)]),
  (10, [(17, ⟨false, 5606320477, 500000000000000⟩), (20, ⟨false, 65171222895601, 50000000000000000000⟩), (25, ⟨true, 3585432484481, 2500000000000000000000000⟩)]),
  (9, [(14, ⟨false, 40516996860117, 12500000000000000000⟩)]),
  (8, [(11, ⟨false, 140077319158051, 10000000000000000000000⟩), (16, ⟨false, 26137306845951, 25000000000000000000000⟩)]),
  (5, [(7, ⟨false, 1994101807570399, 100000000000000000000000000000000⟩)]),
  (4, [(5, ⟨true, 448827542684151, 1000000000000000000000000000000000⟩)]),
  (3, [(3, ⟨true, 100075970318621, 100000000000000000000000000000000000⟩)]),
  (2, [(2, ⟨false, 465957282962769, 1000000000000000000000000000000000000⟩)]),
  (1, [(1, ⟨true, 4557023645351, 62500000000000000000000000000000000⟩)]),
  (0, [(0, ⟨false, 1917510289495389, 500000000000000000000000000000000000000⟩)])]

/-- γ -/
def t01 : List (Nat × List (Nat × Co)) :=
  [(14, [(21, ⟨false, 14632971213167, 100000000000000⟩), (31, ⟨true, 42274093584557, 50000000000000⟩), (33, ⟨true, 939090091801, 250000000000⟩), (32, ⟨false, 6771033833677, 2000000000000⟩), (30, ⟨true, 2993498855871, 3125000000000⟩), (29, ⟨false, 3943009628307, 25000000000000⟩), (28, ⟨true, 16616417199501, 1000000000000000⟩), (27, ⟨false, 5075914373973, 6250000000000000⟩)]),
  (13, [(14, ⟨false, 7079770030951, 25000000000000000⟩), (16, ⟨true, 30353150782937, 50000000000000000⟩), (31, ⟨true, 18990068218419, 1000000000000000⟩), (33, ⟨true, 6505949754101, 200000000000000⟩), (32, ⟨true, 10920858587707, 500000000000000⟩), (29, ⟨true, 5283835796993, 100000000000000000⟩)]),
  (12, [(20, ⟨true, 47184321073267, 100000000000000000⟩), (33, ⟨true, 15000890396513, 50000000000000000⟩), (32, ⟨false, 47661393906987, 1000000000000000000⟩), (29, ⟨true, 22070922665423, 5000000000000000000⟩), (22, ⟨true, 36347498148797, 50000000000000000000000000000⟩)]),
  (11, [(19, ⟨true, 15839822422527, 500000000000000000⟩), (33, ⟨true, 883462437041, 312500000000000000⟩), (26, ⟨true, 85205128120103, 100000000000000000000000⟩)]),
  (10, [(18, ⟨true, 5606320477, 2500000000000000⟩), (21, ⟨true, 65171222895601, 100000000000000000000⟩), (24, ⟨true, 3585432484481, 25000000000000000000000000⟩)]),
  (9, [(15, ⟨true, 40516996860117, 100000000000000000000⟩)]),
  (8, [(12, ⟨true, 12734301741641, 10000000000000000000000⟩), (17, ⟨true, 8712435615317, 50000000000000000000000⟩)]),
  (5, [(8, ⟨true, 68762131295531, 100000000000000000000000000000000⟩)]),
  (4, [(6, ⟨false, 14478307828521, 1000000000000000000000000000000000⟩)]),
  (3, [(4, ⟨false, 5267156332559, 200000000000000000000000000000000000⟩)]),
  (2, [(3, ⟨true, 11947622640071, 1000000000000000000000000000000000000⟩)]),
  (1, [(2, ⟨false, 4557023645351, 2500000000000000000000000000000000000⟩)]),
  (0, [(1, ⟨true, 46768543646229, 500000000000000000000000000000000000000⟩)])]

def chxPh1 : List (Nat × Nat) := [(0, 0), (1, 0), (2, 0), (3, 0), (4, 0)]

def chyPh1 : List (Nat × Nat) := [(0, 0), (1, 0), (2, 0), (2, 0), (1, 0), (5, 0), (0, 0), (2, 0)]

def tbPh1 : List (Nat × List (Nat × Co)) :=
  [(6, [(9, ⟨true, 23872489924521, 100000000000⟩), (8, ⟨false, 8084237727589, 20000000000⟩), (7, ⟨false, 5674873440859, 50000000000⟩), (4, ⟨true, 58457616048039, 10000000000000⟩), (1, ⟨true, 764274120657, 5000000000000000⟩), (0, ⟨true, 10866707695377, 10000000000000000000⟩)]),
  (5, [(9, ⟨true, 6695872436301, 500000000000⟩), (8, ⟨false, 43211039183559, 1000000000000⟩), (7, ⟨true, 27005033585253, 500000000000⟩), (6, ⟨false, 7633973050979, 250000000000⟩), (5, ⟨true, 32982374711819, 5000000000000⟩), (3, ⟨false, 93965400878363, 10000000000000000⟩), (0, ⟨false, 578682375267, 5000000000000000000⟩)]),
  (4, [(3, ⟨true, 25858641282073, 1000000000000000000⟩), (0, ⟨true, 40644363084799, 10000000000000000000000⟩)]),
  (3, [(3, ⟨false, 13291237238327, 200000000000000000000⟩), (0, ⟨false, 80670734103027, 1000000000000000000000000⟩)]),
  (2, [(0, ⟨true, 93477771213947, 100000000000000000000000000⟩)]),
  (1, [(0, ⟨false, 58265442020601, 10000000000000000000000000000⟩)]),
  (0, [(0, ⟨true, 15020185953503, 1000000000000000000000000000000⟩)])]

def chxPs1 : List (Nat × Nat) := [(0, 0), (1, 0), (2, 0)]

def chyPs1 : List (Nat × Nat) := [(0, 0), (1, 0), (2, 0), (3, 0), (1, 0), (5, 0), (6, 0), (7, 0), (6, 0), (9, 0), (1, 0), (11, 0)]

def tbPs1 : List (Nat × List (Nat × Co)) :=
  [(4, [(13, ⟨false, 17478268058307, 100000000000⟩), (12, ⟨false, 34806930892873, 1000000000000⟩), (11, ⟨false, 13058516995691, 2000000000000⟩), (10, ⟨false, 33039981775489, 100000000000000⟩), (5, ⟨true, 4820345730799, 25000000000000000000⟩), (1, ⟨true, 24909197244573, 1000000000000000000000000000000000000⟩)]),
  (3, [(13, ⟨true, 6526909122333, 25000000000000⟩), (12, ⟨false, 11296482990793, 50000000000000⟩), (11, ⟨true, 32128231697613, 500000000000000⟩), (10, ⟨false, 39438144635263, 5000000000000000⟩), (4, ⟨false, 17836055303683, 50000000000000000000000⟩), (1, ⟨false, 3466499398979, 2000000000000000000000000000000000000⟩)]),
  (2, [(13, ⟨false, 56608900654837, 100000000000000000⟩), (12, ⟨true, 32635483139717, 100000000000000000⟩), (11, ⟨false, 5597285836329, 125000000000000000⟩), (7, ⟨true, 51322156908507, 100000000000000000000000⟩), (1, ⟨true, 42522657042207, 1000000000000000000000000000000000000000⟩)]),
  (1, [(6, ⟨false, 26400441360689, 100000000000000000000000000⟩), (0, ⟨false, 78124600459723, 1000000000000000000000000000000000000000000⟩)]),
  (0, [(0, ⟨true, 7683049975917, 25000000000000000000000000000000000000000000⟩)])]

def chxHs1 : List (Nat × Nat) := [(0, 0), (1, 0), (2, 0), (3, 0)]

def chyHs1 : List (Nat × Nat) := [(0, 0), (0, 0), (2, 0), (3, 0), (3, 0), (4, 0), (4, 0)]

def tbHs1 : List (Nat × List (Nat × Co)) :=
  [(5, [(8, ⟨true, 345998507330291, 500000000000000⟩), (7, ⟨true, 4590313719689, 250000000000⟩), (6, ⟨true, 185666481859467, 20000000000000⟩), (5, ⟨false, 329819784954953, 5000000000000⟩), (4, ⟨true, 20257548614003, 1250000000000⟩), (3, ⟨false, 450620017338667, 1000000000000⟩), (2, ⟨false, 85468067822417, 100000000000⟩), (0, ⟨false, 303761607000581, 50000000000⟩)]),
  (4, [(8, ⟨false, 10202740081933, 312500000000⟩), (7, ⟨true, 269408844582931, 10000000000000⟩), (5, ⟨true, 3199478483343, 10000000000⟩), (3, ⟨true, 23208857676083, 25000000000⟩)]),
  (3, [(8, ⟨false, 303634537455249, 10000000000000⟩), (7, ⟨true, 325270211222073, 5000000000000⟩), (1, ⟨true, 43099131651613, 10000000000⟩)]),
  (2, [(5, ⟨true, 186878081024017, 250000000000⟩)]),
  (1, [(7, ⟨false, 146000069105849, 200000000000⟩), (5, ⟨false, 114284032569021, 100000000000⟩)]),
  (0, [(8, ⟨true, 436407041874559, 1000000000000⟩)])]

/-- powers of 7.1 - p/16.53 and of τ - 1.222 -/
noncomputable def st1 (P : Par) (p tau : TM) (k : List TM → List TM → Bool) : Bool :=
  lin P [p, tone P] [(1, ⟨false, 71, 10⟩), (0, ⟨true, 100, 1653⟩)] fun X => refresh P X fun X =>
  lin P [tau, tone P] [(0, ⟨false, 1, 1⟩), (1, ⟨true, 1222, 1000⟩)] fun Y => refresh P Y fun Y =>
  inv P 4 Y fun Yi =>
  pows P chx1 (fun xs => pows P chy1 (fun ys => k xs ys) [Yi, Y, tone P]) [X, tone P]

/-- Σ over a table in two given models, exponents nonnegative -/
noncomputable def back (P : Par) (chx chy : List (Nat × Nat)) (tb : List (Nat × List (Nat × Co))) (x y : TM)
    (k : TM → Bool) : Bool :=
  pows P chx (fun xs => pows P chy (fun ys => poly P xs ys k tb (nat_lit 0) (nat_lit 0) (nat_lit 0) (nat_lit 0))
    [y, tone P]) [x, tone P]

/-- |T' τ - Ts| ≤ tol τ, so |T' - Ts/τ| ≤ tol -/
noncomputable def close (P : Par) (th tau : TM) (Ts tn td yr yc E : Nat) : Bool :=
  mul P th tau fun e => lin P [e, tone P] [(0, ⟨false, 1, 1⟩), (1, ⟨true, Ts, 1⟩)] fun e =>
  force (Nat.div (Nat.mul (Nat.mul tn P.one) (Nat.sub yc yr)) (Nat.mul td E)) fun tol => bnd P e tol

noncomputable def leafPh1 (P : Par) (tn td xr yr xc D yc E : Nat) : Bool :=
  base P xr yr xc D yc E fun p tau => st1 P p tau fun xs ys =>
  poly P xs ys (fun g =>
    lin P [g, tone P] [(0, ⟨false, 639675036, 2500000000⟩), (1, ⟨false, 1, 1⟩)] fun eta => refresh P eta fun eta =>
    back P chxPh1 chyPh1 tbPh1 p eta fun th => close P th tau 1386 tn td yr yc E)
    tg1 (nat_lit 0) (nat_lit 0) (nat_lit 0) (nat_lit 0)

noncomputable def leafPs1 (P : Par) (tn td xr yr xc D yc E : Nat) : Bool :=
  base P xr yr xc D yc E fun p tau => st1 P p tau fun xs ys =>
  poly P xs ys (fun g => poly P xs ys (fun g0 => mul P g tau fun gy =>
    lin P [gy, g0, tone P] [(0, ⟨false, 461526, 1000000⟩), (1, ⟨true, 461526, 1000000⟩), (2, ⟨false, 2, 1⟩)] fun eta =>
    refresh P eta fun eta =>
    back P chxPs1 chyPs1 tbPs1 p eta fun th => close P th tau 1386 tn td yr yc E)
    t01 (nat_lit 0) (nat_lit 0) (nat_lit 0) (nat_lit 0))
    tg1 (nat_lit 0) (nat_lit 0) (nat_lit 0) (nat_lit 0)

/-- |p' - p| ≤ pn/pd for the pressure from (h, s), and the temperature from (p', h) -/
noncomputable def leafHs1 (P : Par) (pn pd tn td xr yr xc D yc E : Nat) : Bool :=
  base P xr yr xc D yc E fun p tau => st1 P p tau fun xs ys =>
  poly P xs ys (fun g => poly P xs ys (fun g0 => mul P g tau fun gy => refresh P g fun g =>
    lin P [g, tone P] [(0, ⟨false, 639675036, 3400000000⟩), (1, ⟨false, 5, 100⟩)] fun eta => refresh P eta fun eta =>
    lin P [gy, g0, tone P] [(0, ⟨false, 461526, 7600000⟩), (1, ⟨true, 461526, 7600000⟩), (2, ⟨false, 5, 100⟩)] fun sig =>
    refresh P sig fun sig =>
    back P chxHs1 chyHs1 tbHs1 eta sig fun q => lin P [q] [(0, ⟨false, 100, 1⟩)] fun q => refresh P q fun q =>
    lin P [q, p] [(0, ⟨false, 1, 1⟩), (1, ⟨true, 1, 1⟩)] fun e =>
    gd (force (Nat.div (Nat.mul pn P.one) pd) fun tol => bnd P e tol)
    (lin P [g, tone P] [(0, ⟨false, 639675036, 2500000000⟩), (1, ⟨false, 1, 1⟩)] fun eta => refresh P eta fun eta =>
    back P chxPh1 chyPh1 tbPh1 q eta fun th => close P th tau 1386 tn td yr yc E))
    t01 (nat_lit 0) (nat_lit 0) (nat_lit 0) (nat_lit 0))
    tg1 (nat_lit 0) (nat_lit 0) (nat_lit 0) (nat_lit 0)

end If97.Tm
