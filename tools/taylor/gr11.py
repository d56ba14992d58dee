"""emit Lemmas/Tm/Comp/Region3r.lean, Lemmas/Tm/R3r.lean, Lemmas/Tm/Logs3r.lean: which states of region 3 are recognised"""
import sys,os,re,math,pickle
sys.path.insert(0,'/tmp/tm'); sys.argv=['x','none']
from gr1 import *
from gr1 import tabl
from fractions import Fraction as Fr
import eng11 as A
os.environ['SUB']='1'
import importlib
src=open('/tmp/tm/eng11.py').read()
ns={'__name__':'eng11s'}; exec(compile(src,'eng11s','exec'),ns)
QS,BS=ns['Q'],ns['BANDS']
import tm
O='/verif/lean/Verif/Lemmas/Tm/'
KK=Fr(5,2)
Tc=Fr('647.096'); n3,n4,n5=A.n3,A.n4,A.n5
q6l=lambda q:'⟨'+', '.join(co(c) for c in q)+'⟩'
NQ=[Fr(0)]*4+[-Fr(13,10),-Fr(19,10)]; NV=[Fr(0)]*4+[-Fr(22,10),-Fr(3)]
bands=[(b,q) for b,q in zip(A.BANDS,A.Q)]+[(b,q) for b,q in zip(BS,QS)]
c="""import Verif.Lemmas.Tm.Comp.Region3st
import Verif.Lemmas.Tm.Comp.Scales

/-! The computations that the kernel runs, without Mathlib: which states of region 3 lie between the enthalpies and
entropies at its borders with regions 1, 2 and 4.  What they establish is in `Lemmas/Tm/Leaf3r.lean`. -/

namespace If97.Tm

/-- a band of pressures, in kPa, with bounds in p/100 of the enthalpy and entropy of region 1 at 623.15 K (from above) and
of region 2 at B23 (from below), and two slopes -/
structure Bnd where
  lo : Nat
  hi : Nat
  h13 : Q6
  h32 : Q6
  s13 : Q6
  s32 : Q6
  nq : Co
  nv : Co

"""
for i,((lo,hi,_,_),q) in enumerate(bands):
    c+=f"def bd{i} : Bnd :=\n  ⟨{int(Fr(str(lo))*1000)}, {int(Fr(str(hi))*1000)},\n    {q6l(q['H13'])},\n    {q6l(q['H32'])},\n    {q6l(q['S13'])},\n    {q6l(q['S32'])}, {co(NQ[i])}, {co(NV[i])}⟩\n\n"
pr=''
for nm,model,doc in (('P34h','h2p_sat_reg3_IJn','the saturation pressure by enthalpy'),('P34s','s2p_sat_reg3_IJn','the saturation pressure by entropy')):
    tb=[(I,J,Fr(k)/KK**(I+J)) for I,J,k in tm.tab('Bound.lean',model)]
    t=tabl(nm,tb,0,0,model,'(SameD (5 / 2))',doc)
    ds=[]
    for d in ['chx','chy','tb']:
        m=re.search(r'def '+d+nm+r' : .*?(?=\n(?:def|theorem|/-!|end))',t,re.S); ds.append(m.group(0)); t=t.replace(m.group(0)+'\n','')
    c+=f'/-! {doc}, in 5/2 of its variables -/\n\n'+'\n\n'.join(ds)+'\n\n'; pr+=t
e=Fr(5,100)-n4
m=Fr(1,10)/Tc
def bq(q,m): return [q[0],q[1]+2*q[0]*m,q[2]+q[1]*m+q[0]*m*m]
QH=(Fr('2.675'),-Fr('1.1753'),Fr('0.66763')); QL=(Fr('2.675'),-Fr('1.1753'),Fr('0.66744'))
bl,bh=bq(QL,m),bq(QH,-m)
LN=(-Tc*Tc/3/322, (-16*Tc+2*Tc*Tc/3)/322, (16*Tc-Tc*Tc/3)/322)
z="(nat_lit 0) (nat_lit 0) (nat_lit 0) (nat_lit 0)"
p1,m1='⟨false, 1, 1⟩','⟨true, 1, 1⟩'
RT=Fr('0.461526')
c+=f"""/-- 1/τ, p, h and s -/
noncomputable def hs3 (P : Par) (l : LogC) (d t : TM) (k : TM → TM → TM → TM → Bool) : Bool :=
  st3t P d t fun xs ys c ti p => poly P xs ys (fun a => mul P t a fun m =>
    lin P [m, c] [(0, {p1}), (1, {p1})] fun e => refresh P e fun e => mul P e ti fun e =>
    lin P [e] [(0, ⟨false, 18665726781, 62500000⟩)] fun h => refresh P h fun h =>
    poly P xs ys (fun f => logT P l d fun l =>
      lin P [m, f, l] [(0, ⟨false, 461526, 1000000⟩), (1, ⟨true, 461526, 1000000⟩),
        (2, ⟨true, 2459488213989745419, 5000000000000000000⟩)] fun s => refresh P s fun s => k ti p h s)
      tz3 {z}) tj3 {z}

/-- is z > q(p/100)? -/
noncomputable def above (P : Par) (q : Q6) (x z : TM) : Bool :=
  polyB P q x fun w => lin P [z, w] [(0, {p1}), (1, {m1})] fun w => pos P w
/-- is z < q(p/100)? -/
noncomputable def below (P : Par) (q : Q6) (x z : TM) : Bool :=
  polyB P q x fun w => lin P [w, z] [(0, {p1}), (1, {m1})] fun w => pos P w
/-- is z + λ g < q(p/100), where λ = l0 + l1 δ + l2 δ² is positive? -/
noncomputable def belowL (P : Par) (q : Q6) (l2 l1 l0 : Co) (d2 d g x z : TM) : Bool :=
  lin P [d2, d, tone P] [(0, l2), (1, l1), (2, l0)] fun l => gd (pos P l) <| mul P l g fun m =>
  polyB P q x fun w => lin P [w, z, m] [(0, {p1}), (1, {m1}), (2, {m1})] fun w => pos P w

noncomputable def x100 (P : Par) (p : TM) (k : TM → Bool) : Bool := lin P [p] [(0, ⟨false, 1, 100⟩)] k

noncomputable def ck13 (P : Par) (B : Bnd) (x h s : TM) : Bool := gd (above P B.h13 x h) (above P B.s13 x s)
noncomputable def ck32 (P : Par) (B : Bnd) (x h s : TM) : Bool := gd (below P B.h32 x h) (below P B.s32 x s)
noncomputable def ck32L (P : Par) (B : Bnd) (d g x h s : TM) : Bool :=
  mul P d d fun d2 =>
  gd (belowL P B.h32 {co(A.LH[2])} {co(A.LH[1])} {co(A.LH[0])} d2 d g x h)
    (belowL P B.s32 {co(A.LS[2])} {co(A.LS[1])} {co(A.LS[0])} d2 d g x s)

/-- p - pB23(647.096/τ + 0.05) -/
noncomputable def pBg (P : Par) (ti p : TM) (k : TM → Bool) : Bool :=
  mul P ti ti fun t2 => lin P [t2, ti, tone P] [(0, {co(n3*Tc*Tc)}), (1, {co(2*n3*Tc*e)}), (2, {co(n5+n3*e*e)})] fun b =>
  lin P [p, b] [(0, {p1}), (1, {m1})] fun g => refresh P g k

/-- does the box lie outside the band? -/
noncomputable def kBnd (P : Par) (B : Bnd) (p : TM) (k : Bool) : Bool :=
  orB (lin P [tone P, p] [(0, ⟨false, B.lo, 1000⟩), (1, {m1})] fun w => pos P w)
  (orB (lin P [tone P, p] [(0, ⟨true, B.hi, 1000⟩), (1, {p1})] fun w => pos P w) k)

/-! above 22.064 MPa -/

/-- outside the band, or beyond B23? -/
noncomputable def kRec (P : Par) (B : Bnd) (d t : TM) : Bool :=
  st3t P d t fun _ _ _ ti p => kBnd P B p (pBg P ti p fun g => npos P g)
noncomputable def bRec (P : Par) (l : LogC) (B : Bnd) (d t : TM) : Bool :=
  hs3 P l d t fun _ p h s => x100 P p fun x => gd (ck13 P B x h s) (ck32 P B x h s)
/-- near B23 -/
noncomputable def bRecL (P : Par) (l : LogC) (B : Bnd) (d t : TM) : Bool :=
  hs3 P l d t fun ti p h s => x100 P p fun x => gd (ck13 P B x h s) (pBg P ti p fun g => ck32L P B d g x h s)
noncomputable def vRec (l : LogC) (B : Bnd) (xr yr : Nat) (t : Tr4) : Nat → Nat → Nat → Nat → Bool :=
  verify4 (leafB P64 (kRec P64 B) xr yr) (leafB P64 (bRec P64 l B) xr yr) (leafB P64 (bRecL P64 l B) xr yr)
    (leafB P64 (kRec P64 B) xr yr) xr yr t

/-! below 22.064 MPa -/

noncomputable def p34h (P : Par) (h : TM) (k : TM → Bool) : Bool :=
  lin P [h, tone P] [(0, {co(KK/2600)}), (1, {co(-KK*Fr('1.02'))})] fun X => refresh P X fun X =>
  lin P [h, tone P] [(0, {co(KK/2600)}), (1, {co(-KK*Fr('0.608'))})] fun Y => refresh P Y fun Y =>
  back P chxP34h chyP34h tbP34h X Y fun r => lin P [r] [(0, ⟨false, 22, 1⟩)] k
noncomputable def p34s (P : Par) (s : TM) (k : TM → Bool) : Bool :=
  lin P [s, tone P] [(0, {co(KK/Fr('5.2'))}), (1, {co(-KK*Fr('1.03'))})] fun X => refresh P X fun X =>
  lin P [s, tone P] [(0, {co(KK/Fr('5.2'))}), (1, {co(-KK*Fr('0.699'))})] fun Y => refresh P Y fun Y =>
  back P chxP34s chyP34s tbP34s X Y fun r => lin P [r] [(0, ⟨false, 22, 1⟩)] k

/-- is p above the saturation pressure by enthalpy and by entropy? -/
noncomputable def ck34 (P : Par) (p h s : TM) : Bool :=
  gd (p34h P h fun z => lin P [p, z] [(0, {p1}), (1, {m1})] fun w => pos P w)
    (p34s P s fun z => lin P [p, z] [(0, {p1}), (1, {m1})] fun w => pos P w)
/-- w > 0 or w > n g? -/
noncomputable def posN (P : Par) (n : Co) (g w : TM) : Bool :=
  orB (pos P w) (lin P [w, g] [(0, {p1}), (1, n)] fun w => pos P w)
noncomputable def ck34N (P : Par) (n : Co) (g p h s : TM) : Bool :=
  gd (p34h P h fun z => lin P [p, z] [(0, {p1}), (1, {m1})] fun w => posN P n g w)
    (p34s P s fun z => lin P [p, z] [(0, {p1}), (1, {m1})] fun w => posN P n g w)

/-- p less a minorant of the saturation pressure 0.1 K higher, and 1/τ² -/
noncomputable def gLiq (P : Par) (ti p : TM) (k : TM → TM → Bool) : Bool :=
  mul P ti ti fun t2 => lin P [t2, ti, tone P] [(0, {co(bl[0])}), (1, {co(bl[1])}), (2, {co(bl[2])})] fun b =>
  mul P b b fun b => mul P b b fun b => lin P [p, b] [(0, {p1}), (1, {m1})] fun g => refresh P g fun g => k t2 g
/-- a majorant of the saturation pressure 0.1 K lower, less p, and 1/τ² -/
noncomputable def gVap (P : Par) (ti p : TM) (k : TM → TM → Bool) : Bool :=
  mul P ti ti fun t2 => lin P [t2, ti, tone P] [(0, {co(bh[0])}), (1, {co(bh[1])}), (2, {co(bh[2])})] fun b =>
  mul P b b fun b => mul P b b fun b => lin P [p, b] [(0, {m1}), (1, {p1})] fun g => refresh P g fun g => k t2 g

/-- outside the band, too close to saturation, or inside the dome? -/
noncomputable def kSubq (P : Par) (B : Bnd) (d t : TM) : Bool :=
  st3t P d t fun _ _ _ ti p => kBnd P B p <| gLiq P ti p fun t2 g => orB (npos P g) <|
  lin P [t2, ti, tone P, d] [(0, {co(LN[0])}), (1, {co(LN[1])}), (2, {co(LN[2]+1)}), (3, {m1})] fun w => pos P w
noncomputable def kSubw (P : Par) (B : Bnd) (d t : TM) : Bool :=
  st3t P d t fun _ _ _ ti p => kBnd P B p <| gVap P ti p fun _ g => orB (npos P g) <| pBg P ti p fun g => npos P g
noncomputable def kSubv (P : Par) (B : Bnd) (d t : TM) : Bool :=
  st3t P d t fun _ _ _ ti p => kBnd P B p <| gVap P ti p fun t2 g => orB (npos P g) <| orB (pBg P ti p fun g => npos P g) <|
  lin P [t2, ti, tone P, d] [(0, {co(LN[0])}), (1, {co(LN[1])}), (2, {co(LN[2]-1)}), (3, {p1})] fun w => pos P w

noncomputable def bSub (P : Par) (l : LogC) (B : Bnd) (d t : TM) : Bool :=
  hs3 P l d t fun _ p h s => x100 P p fun x => gd (ck13 P B x h s) (gd (ck34 P p h s) (ck32 P B x h s))
/-- near B23 -/
noncomputable def bSubL (P : Par) (l : LogC) (B : Bnd) (d t : TM) : Bool :=
  hs3 P l d t fun ti p h s => x100 P p fun x => gd (ck13 P B x h s) (gd (ck34 P p h s)
    (pBg P ti p fun g => ck32L P B d g x h s))
/-- near saturation -/
noncomputable def bSubq (P : Par) (l : LogC) (B : Bnd) (d t : TM) : Bool :=
  hs3 P l d t fun ti p h s => x100 P p fun x => gd (ck13 P B x h s) (gd (gLiq P ti p fun _ g => ck34N P B.nq g p h s)
    (ck32 P B x h s))
noncomputable def bSubv (P : Par) (l : LogC) (B : Bnd) (d t : TM) : Bool :=
  hs3 P l d t fun ti p h s => x100 P p fun x => gd (ck13 P B x h s) (gd (gVap P ti p fun _ g => ck34N P B.nv g p h s)
    (ck32 P B x h s))

noncomputable def vSubq (l : LogC) (B : Bnd) (xr yr : Nat) (t : Tr4) : Nat → Nat → Nat → Nat → Bool :=
  verify4 (leafB P64 (kSubq P64 B) xr yr) (leafB P64 (bSub P64 l B) xr yr) (leafB P64 (bSub P64 l B) xr yr)
    (leafB P64 (bSubq P64 l B) xr yr) xr yr t
noncomputable def vSubv (l : LogC) (B : Bnd) (xr yr : Nat) (t : Tr4) : Nat → Nat → Nat → Nat → Bool :=
  verify4 (leafB P64 (kSubv P64 B) xr yr) (leafB P64 (bSub P64 l B) xr yr) (leafB P64 (bSubL P64 l B) xr yr)
    (leafB P64 (bSubv P64 l B) xr yr) xr yr t
noncomputable def vSubw (l : LogC) (B : Bnd) (xr yr : Nat) (t : Tr4) : Nat → Nat → Nat → Nat → Bool :=
  verify4 (leafB P64 (kSubw P64 B) xr yr) (leafB P64 (bSub P64 l B) xr yr) (leafB P64 (bSubL P64 l B) xr yr)
    (leafB P64 (bSubv P64 l B) xr yr) xr yr t

/-! the borders -/

/-- region 1 at p and τ: are the enthalpy and the entropy below the bounds? -/
noncomputable def bE13 (P : Par) (B : Bnd) (p tau : TM) : Bool :=
  st1 P p tau fun xs ys => poly P xs ys (fun g => poly P xs ys (fun g0 => mul P g tau fun gy => x100 P p fun x =>
    lin P [g] [(0, {co(RT*1386)})] fun h => lin P [gy, g0] [(0, {co(RT)}), (1, {co(-RT)})] fun s =>
    gd (below P B.h13 x h) (below P B.s13 x s)) t01 {z}) tg1 {z}
/-- region 2 at 540 θ on B23: are the enthalpy and the entropy above the bounds? -/
noncomputable def bE32 (P : Par) (K : Scl) (l : LogC) (B : Bnd) (th _t : TM) : Bool :=
  Scl.rec (motive := fun _ => Bool) (fun xn xd yn yd t0 tg =>
  inv P 4 th fun tau => mul P th th fun x2 =>
  lin P [x2, th, tone P] [(0, {co(n3*540*540)}), (1, {co(-2*n3*n4*540)}), (2, {co(n5+n3*n4*n4)})] fun p => refresh P p fun p =>
  st2 P xn xd yn yd p tau fun xs ys ts => lin P ts ti2 fun g0 => lin P ts ti02 fun f0 =>
  poly P xs ys (fun gr => lin P [g0, gr] [(0, {p1}), (1, {p1})] fun g => refresh P g fun g =>
    poly P xs ys (fun fr => logT P l p fun l => mul P tau g fun m => x100 P p fun x =>
      lin P [g] [(0, {co(RT*540)})] fun h =>
      lin P [m, f0, fr, l] [(0, {co(RT)}), (1, {co(-RT)}), (2, {co(-RT)}), (3, {co(-RT)})] fun s =>
      gd (above P B.h32 x h) (above P B.s32 x s)) t0 {z}) tg {z}) K
noncomputable def vE13 (B : Bnd) (xr yr : Nat) (t : Tr4) : Nat → Nat → Nat → Nat → Bool :=
  verify4 (leafB P12 (bE13 P12 B) xr yr) never never never xr yr t
noncomputable def vE32 (K : Scl) (l : LogC) (B : Bnd) (xr yr : Nat) (t : Tr4) : Nat → Nat → Nat → Nat → Bool :=
  verify4 (leafB P64 (bE32 P64 K l B) xr yr) never never never xr yr t

"""
o=pickle.load(open('/tmp/tm/o11.pk','rb'))+pickle.load(open('/tmp/tm/o11b.pk','rb'))
lg="import Verif.Lemmas.Tm.Comp.Region3r\nimport Verif.Lemmas.Tm.Fans2s\n\n/-! Constants for the logarithm of the pressure on B23 (generated). -/\n\nnamespace If97.Tm\n"
from eng6 import logc
for i,x in enumerate(o):
    cc,rho,w=x[4]; L=logc(cc); nm=f'B{i}'; k=round(math.log2(float(cc))); y=1-cc/Fr(2)**k
    c+=f"def lc{nm} : LogC := ⟨{cc.numerator}, {cc.denominator}, {co(L)}, {rho.numerator}, {rho.denominator}, {w}⟩\n"
    lg+=f"""
theorem lc{nm}_ok : lc{nm}.Ok := by
  refine LogC.ok_of (e := 9 / 10 ^ 15) (by decide) ?_ (by norm_num [lc{nm}])
  have e : ((lc{nm}.cn : ℝ) / lc{nm}.cd) = (2 : ℝ) ^ ({k} : ℤ) * (1 - {f'({y})' if y>=0 else f'(-({-y}))'}) := by norm_num [lc{nm}]
  rw [e]
  refine log_near (by norm_num [abs_lt]) 34 ?_
  norm_num [Finset.sum_range_succ, lc{nm}, Co.val, abs_le]
"""
open(O+'Comp/Region3r.lean','w').write(c+"\nend If97.Tm\n")
open(O+'Logs3r.lean','w').write(lg+"\nend If97.Tm\n")
open(O+'R3r.lean','w').write("""import Verif.Lemmas.Tm.R3t
import Verif.Lemmas.Tm.Comp.Region3r

/-! The tables of the saturation pressure by enthalpy and by entropy in the form the Taylor models use. -/

namespace If97.Tm
set_option maxRecDepth 100000

/-- the same term, in k times both variables -/
def SameD (k : ℝ) (a : Int × Int × Co) (e : Int × Int × ℝ) : Prop :=
  a.1 = e.1 ∧ a.2.1 = e.2.1 ∧ a.2.2.val * k ^ e.1 * k ^ e.2.1 = e.2.2
"""+pr+"\nend If97.Tm\n")
