import sys,re
sys.path.insert(0,'/tmp/tm')
from gr1 import *
from gr1 import tabl
import tm
tab=tm.tab
O='/verif/lean/Verif/Lemmas/Tm/'
src=open(O+'R3h.lean').read()
moved=''
if 'Comp.Region3' not in src:
    defs=[]
    for nm in ['chxV3a','chyV3a','tbV3a','chxV3b','chyV3b','tbV3b','chx3','chy3','tz3','ti3','tj3']:
        m=re.search(r'def '+nm+r' : .*?(?=\n(?:def|theorem|/-!|end))',src,re.S)
        defs.append(m.group(0)); src=src.replace(m.group(0)+'\n','')
    src=src.replace('import Verif.Lemmas.Tm.Rd\n','import Verif.Lemmas.Tm.Rd\nimport Verif.Lemmas.Tm.Comp.Region3\n')
    open('/tmp/tm/moved3.txt','w').write('\n\n'.join(defs)+'\n\n'); open(O+'R3h.lean','w').write(src)
moved=open('/tmp/tm/moved3.txt').read()
KY=4
tabs=[('T3a','ph2T_3a_reg3_IJn',1,'T(p, h) in 3a'),('T3b','ph2T_3b_reg3_IJn',1,'T(p, h) in 3b'),
 ('Ts3a','ps2T_3a_reg3_IJn',KY,'T(p, s) in 3a'),('Ts3b','ps2T_3b_reg3_IJn',KY,'T(p, s) in 3b'),
 ('Vs3a','ps2v_3a_reg3_IJn',KY,'v(p, s) in 3a'),('Vs3b','ps2v_3b_reg3_IJn',KY,'v(p, s) in 3b')]
comp=''; pr=''
for nm,model,k,doc in tabs:
    tb=tab('R3.lean',model); tbk=[(I,J,Fr(c)/Fr(k)**J) for I,J,c in tb]
    t=tabl(nm,tbk,0,0,model,'SameT' if k==1 else '(SameS 4)',doc)
    assert '[-1, 1, 0]' in t.split('\n')[7] or True
    ds=[]
    for d in ['chx','chy','tb']:
        m=re.search(r'def '+d+nm+r' : .*?(?=\n(?:def|theorem|/-!|end))',t,re.S); ds.append(m.group(0)); t=t.replace(m.group(0)+'\n','')
    comp+=f'/-! {doc}{", in 4σ" if k>1 else ""} -/\n\n'+'\n\n'.join(ds)+'\n\n'; pr+=t
    print(nm,re.findall(r'powE ch\w+ (\[.*?\])',t))
N=lambda *a:''
body='''
/-- δ, τ and what the pressure needs: powers, δ φ_δ, 1/τ, p -/
noncomputable def st3t (P : Par) (d t : TM) (k : List TM → List TM → TM → TM → TM → Bool) : Bool :=
  pows P chx3 (fun xs => pows P chy3 (fun ys => poly P xs ys (fun c =>
    lin P [c, tone P] [(0, ⟨false, 1, 1⟩), (1, ⟨false, 10658070028513, 10000000000000⟩)] fun c => refresh P c fun c =>
    inv P 4 t fun ti => mul P d ti fun m => mul P m c fun m =>
    lin P [m] [(0, PCO)] fun p => refresh P p fun p => k xs ys c ti p)
    ti3 (nat_lit 0) (nat_lit 0) (nat_lit 0) (nat_lit 0)) [t, tone P]) [d, tone P]

/-- does the box lie above 100 MPa, or below the pressure b2/τ² + b1/τ + b0? -/
noncomputable def kOut (P : Par) (b2 b1 b0 : Co) (d t : TM) : Bool :=
  st3t P d t fun _ _ _ ti p => Bool.rec
    (mul P ti ti fun t2 => lin P [t2, ti, tone P, p] [(0, b2), (1, b1), (2, b0), (3, ⟨true, 1, 1⟩)] fun w => pos P w) true
    (lin P [p, tone P] [(0, ⟨false, 1, 1⟩), (1, ⟨true, 100, 1⟩)] fun w => pos P w)

/-- the enthalpy, and its distance to the boundary of 3a and 3b -/
noncomputable def hw3 (P : Par) (d t : TM) (k : TM → TM → TM → TM → Bool) : Bool :=
  st3t P d t fun xs ys c ti p => poly P xs ys (fun a => mul P t a fun m =>
    lin P [m, c] [(0, ⟨false, 1, 1⟩), (1, ⟨false, 1, 1⟩)] fun e => refresh P e fun e => mul P e ti fun e =>
    lin P [e] [(0, RTCO)] fun h => refresh P h fun h => mul P p p fun p2 => mul P p2 p fun p3 =>
    lin P [h, tone P, p, p2, p3] [(0, ⟨false, 1, 1⟩), (1, H0), (2, H1), (3, H2), (4, H3)] fun w => refresh P w fun w =>
    k ti p h w)
    tj3 (nat_lit 0) (nat_lit 0) (nat_lit 0) (nat_lit 0)

/-- the entropy, and its distance to the critical one -/
noncomputable def sw3 (P : Par) (c : LogC) (d t : TM) (k : TM → TM → TM → TM → Bool) : Bool :=
  st3t P d t fun xs ys _ ti p => poly P xs ys (fun a => poly P xs ys (fun f => logT P c d fun l => mul P t a fun m =>
    lin P [m, f, l] [(0, ⟨false, 461526, 1000000⟩), (1, ⟨true, 461526, 1000000⟩),
      (2, ⟨true, 2459488213989745419, 5000000000000000000⟩)] fun s => refresh P s fun s =>
    lin P [s, tone P] [(0, ⟨false, 1, 1⟩), (1, SCO)] fun w => refresh P w fun w => k ti p s w)
    tz3 (nat_lit 0) (nat_lit 0) (nat_lit 0) (nat_lit 0)) tj3 (nat_lit 0) (nat_lit 0) (nat_lit 0) (nat_lit 0)

/-- is |f r - 647.096/τ| at most 25 mK? -/
noncomputable def closeT (P : Par) (f : Nat) (ti r : TM) : Bool :=
  refresh P r fun r => lin P [r, ti] [(0, ⟨false, f, 1⟩), (1, ⟨true, 647096, 1000⟩)] fun e =>
  force (Nat.div (Nat.mul (nat_lit 1) P.one) (nat_lit 40)) fun tol => bnd P e tol

/-- is |f r δ - 1| at most 0.01 %? -/
noncomputable def closeV (P : Par) (f : Co) (d r : TM) : Bool :=
  refresh P r fun r => mul P r d fun e => lin P [e, tone P] [(0, f), (1, ⟨true, 1, 1⟩)] fun e =>
  force (Nat.div (Nat.mul (nat_lit 1) P.one) (nat_lit 10000)) fun tol => bnd P e tol

/-- a polynomial in x = a p + b, 1/x and y = c z + e -/
noncomputable def back3 (P : Par) (a b c e : Co) (chx chy : List (Nat × Nat)) (tb : List (Nat × List (Nat × Co)))
    (p z : TM) (k : TM → Bool) : Bool :=
  lin P [p, tone P] [(0, a), (1, b)] fun X => refresh P X fun X =>
  lin P [z, tone P] [(0, c), (1, e)] fun Y => refresh P Y fun Y =>
  inv P 4 X fun Xi => pows P chx (fun xs => pows P chy (fun ys => poly P xs ys k tb (nat_lit 0) (nat_lit 0) (nat_lit 0)
    (nat_lit 0)) [Y, tone P]) [Xi, X, tone P]

noncomputable def phA (P : Par) (d ti p h : TM) : Bool :=
  gd (back3 P ⟨false, 1, 100⟩ ⟨false, 240, 1000⟩ ⟨false, 1, 2300⟩ ⟨true, 615, 1000⟩ chxT3a chyT3a tbT3a p h (closeT P 760 ti))
    (back3 P ⟨false, 1, 100⟩ ⟨false, 128, 1000⟩ ⟨false, 1, 2100⟩ ⟨true, 727, 1000⟩ chxV3a chyV3a tbV3a p h (closeV P FA d))

noncomputable def phB (P : Par) (d ti p h : TM) : Bool :=
  gd (back3 P ⟨false, 1, 100⟩ ⟨false, 298, 1000⟩ ⟨false, 1, 2800⟩ ⟨true, 720, 1000⟩ chxT3b chyT3b tbT3b p h (closeT P 860 ti))
    (back3 P ⟨false, 1, 100⟩ ⟨false, 661, 10000⟩ ⟨false, 1, 2800⟩ ⟨true, 720, 1000⟩ chxV3b chyV3b tbV3b p h (closeV P FB d))

noncomputable def psA (P : Par) (d ti p s : TM) : Bool :=
  gd (back3 P ⟨false, 1, 100⟩ ⟨false, 240, 1000⟩ ⟨false, 40, 44⟩ ⟨true, 2812, 1000⟩ chxTs3a chyTs3a tbTs3a p s (closeT P 760 ti))
    (back3 P ⟨false, 1, 100⟩ ⟨false, 187, 1000⟩ ⟨false, 40, 44⟩ ⟨true, 3020, 1000⟩ chxVs3a chyVs3a tbVs3a p s (closeV P FA d))

noncomputable def psB (P : Par) (d ti p s : TM) : Bool :=
  gd (back3 P ⟨false, 1, 100⟩ ⟨false, 760, 1000⟩ ⟨false, 40, 53⟩ ⟨true, 3272, 1000⟩ chxTs3b chyTs3b tbTs3b p s (closeT P 860 ti))
    (back3 P ⟨false, 1, 100⟩ ⟨false, 298, 1000⟩ ⟨false, 40, 53⟩ ⟨true, 3264, 1000⟩ chxVs3b chyVs3b tbVs3b p s (closeV P FB d))

noncomputable def npos (P : Par) (w : TM) : Bool := lin P [w] [(0, ⟨true, 1, 1⟩)] fun w => pos P w

/-- (p, h): the box lies in 3a -/
noncomputable def bPh3a (P : Par) (d t : TM) : Bool := hw3 P d t fun ti p h w => gd (npos P w) (phA P d ti p h)
/-- (p, h): the box lies in 3b -/
noncomputable def bPh3b (P : Par) (d t : TM) : Bool := hw3 P d t fun ti p h w => gd (pos P w) (phB P d ti p h)
/-- (p, h): across the boundary -/
noncomputable def bPh3c (P : Par) (d t : TM) : Bool := hw3 P d t fun ti p h _ => gd (phA P d ti p h) (phB P d ti p h)
/-- (p, s): the box lies in 3a -/
noncomputable def bPs3a (P : Par) (c : LogC) (d t : TM) : Bool := sw3 P c d t fun ti p s w => gd (npos P w) (psA P d ti p s)
/-- (p, s): the box lies in 3b -/
noncomputable def bPs3b (P : Par) (c : LogC) (d t : TM) : Bool := sw3 P c d t fun ti p s w => gd (pos P w) (psB P d ti p s)
/-- (p, s): across the boundary -/
noncomputable def bPs3c (P : Par) (c : LogC) (d t : TM) : Bool := sw3 P c d t fun ti p s _ => gd (psA P d ti p s) (psB P d ti p s)

/-- pB23(647.096/τ) -/
noncomputable def kHot (P : Par) : TM → TM → Bool := kOut P B2 B1 B0
/-- 22.064 MPa -/
noncomputable def kCold (P : Par) : TM → TM → Bool := kOut P ⟨false, 0, 1⟩ ⟨false, 0, 1⟩ ⟨false, 22064, 1000⟩

noncomputable def vPh3 (xr yr : Nat) (t : Tr4) : Nat → Nat → Nat → Nat → Bool :=
  verify4 (leafB P64 (bPh3a P64) xr yr) (leafB P64 (bPh3b P64) xr yr) (leafB P64 (bPh3c P64) xr yr)
    (leafB P64 (kHot P64) xr yr) xr yr t
noncomputable def vPh3l (xr yr : Nat) (t : Tr4) : Nat → Nat → Nat → Nat → Bool :=
  verify4 (leafB P64 (bPh3a P64) xr yr) (leafB P64 (bPh3b P64) xr yr) (leafB P64 (bPh3c P64) xr yr)
    (leafB P64 (kCold P64) xr yr) xr yr t
noncomputable def vPs3 (c : LogC) (xr yr : Nat) (t : Tr4) : Nat → Nat → Nat → Nat → Bool :=
  verify4 (leafB P64 (bPs3a P64 c) xr yr) (leafB P64 (bPs3b P64 c) xr yr) (leafB P64 (bPs3c P64 c) xr yr)
    (leafB P64 (kHot P64) xr yr) xr yr t
noncomputable def vPs3l (c : LogC) (xr yr : Nat) (t : Tr4) : Nat → Nat → Nat → Nat → Bool :=
  verify4 (leafB P64 (bPs3a P64 c) xr yr) (leafB P64 (bPs3b P64 c) xr yr) (leafB P64 (bPs3c P64 c) xr yr)
    (leafB P64 (kCold P64) xr yr) xr yr t

'''
R=Fr('0.461526'); Tc=Fr('647.096')
B23=[Fr('0.34805185628969e3'),Fr('-0.11671859879975e1'),Fr('0.10192970039326e-2')]
rep={'PCO':R*Tc*322/1000,'RTCO':R*Tc,'H0':-Fr('2014.64004206875'),'H1':-Fr('3.74696550136983'),'H2':Fr('0.0219921901054187'),'H3':-Fr('0.0000875131686009950'),'SCO':-Fr('4.41202148223476'),'FA':Fr(28,10000)*322,'FB':Fr(88,10000)*322,'B2':B23[2]*Tc*Tc,'B1':B23[1]*Tc,'B0':B23[0]}
body=re.sub(r'\b(PCO|RTCO|H0|H1|H2|H3|SCO|FA|FB|B2|B1|B0)\b',lambda m:co(rep[m.group(1)]),body)
open(O+'Comp/Region3.lean','w').write('''import Verif.Lemmas.Tm.Comp.Region2s
import Verif.Lemmas.Tm.Comp.Det

/-! The computations that the kernel runs, without Mathlib: the checks of region 3, in the coordinates δ = ρ/322 and
τ = 647.096/T.  What they establish is in `Lemmas/Taylor*.lean` and `Lemmas/Tm/`. -/

namespace If97.Tm

'''+moved+comp+body+'end If97.Tm\n')
open(O+'R3t.lean','w').write('''import Verif.Lemmas.Tm.R3h

/-! The tables of T(p, h), T(p, s), v(p, s) of region 3 in the form the Taylor models use. -/

namespace If97.Tm
set_option maxRecDepth 100000

/-- the table for the variable k y -/
def SameS (k : ℝ) (a : Int × Int × Co) (e : Int × Int × ℝ) : Prop :=
  a.1 = e.1 ∧ a.2.1 = e.2.1 ∧ a.2.2.val * k ^ e.2.1 = e.2.2
'''+pr+'\nend If97.Tm\n')
