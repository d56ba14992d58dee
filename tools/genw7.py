import math,re
Ps='16.5291642526045'; Pm='0.000611212677444'
src=open('/verif/lean/Verif/Model/Bound.lean').read()
def tab(n):
    b=src[src.index('def '+n+' '):]; b=b[:b.index(']')]
    from decimal import Decimal
    from fractions import Fraction as F
    out=[]
    for I,J,c in re.findall(r'\((-?\d+), (-?\d+), ([-0-9.e]+)\)',b):
        d=Decimal(c).as_tuple(); e=d.exponent; n=int(''.join(map(str,d.digits)))*(-1 if d.sign else 1)
        num,den=(n,10**-e) if e<0 else (n*10**e,1)
        out.append(f"⟨{num}, {den}, {I}, {J}, 0⟩")
    return out
h3a=tab('hs_region_h3a_s_IJn')
def pt(x,y,r=2,off=1222000):
    return f"⟨{round(x*1e6)}, {r}, 1000000, {round(y*1e6)}, {r}, 1000000, {off}⟩"
R1=lambda p,T:pt(7.1-p/16.53,1386/T-1.222)
R2=lambda p,T:pt(p,540/T-.5,2,500000)
R5=lambda p,T:pt(p,1000/T,2,0)
ps,pm=float(Ps),float(Pm)
L=[('hw1','cst 82 10 :: (t1 ++ ng (mZ (dY t1)))',[R1(100,623.15),R1(ps,623.15)],'8.2 − s/R in region 1','Y + 1.222','1.222'),
('hw2','cst 262 100 :: ng (dY t1)',[R1(ps,623.15)],'2.62 − γ_τ in region 1','Y + 1.222','1.222'),
('hw3','cst 1 100 :: ng (dY t1)',[R1(pm,273.15)],'0.01 − γ_τ in region 1','Y + 1.222','1.222'),
('hw4','cst 1 100 :: (t1 ++ ng (mZ (dY t1)))',[R1(pm,273.15)],'0.01 − s/R in region 1','Y + 1.222','1.222'),
('hw5','cst 1007 100 :: ng (dY (o2 ++ t2))',[R2(pm,273.15)],'10.07 − γ_τ in region 2','Y + 0.5','0.5'),
('hw6','cst (-4) 1 :: dY (o5 ++ t5)',[R5(50,1073.15)],'γ_τ − 4 in region 5','Y + 0','0'),
('hw8','cst (-12) 1 :: (ng (o2 ++ t2) ++ mZ (dY (o2 ++ t2)))',[R2(pm,273.15)],'s/R + ln p − 12 in region 2','Y + 0.5','0.5'),
('hw9','cst 1 100 :: (ng t1 ++ mZ (dY t1))',[R1(pm,273.15)],'s/R + 0.01 in region 1','Y + 1.222','1.222'),
('hw10','cst (-8) 1 :: dY (o2 ++ t2)',[R2(ps,623.15)],'γ_τ − 8 in region 2','Y + 0.5','0.5'),
('hw11','cst (-7594) 10000 :: flipX h2p',[pt(1.02-1680/2600,1680/2600-.608,2,0)],'p/22 − 0.7594 on the boundary of region 3','Y + 0','0'),
('hw12','cst 7635 10000 :: ng (flipX h2p)',[pt(1.02-1680/2600,1680/2600-.608,2,0)],'0.7635 − p/22 on the boundary of region 3','Y + 0','0'),
('hw7','cst (-9883) 10000 :: flipX h3a',[pt(1.09-3.792948/3.8,3.792948/3.8+.366e-4,2,0)],'h_3a/1700 − 0.9883','Y + 0','0')]
s='''import Verif.Lemmas.IvCover
import Verif.Model.Bound

/-! Values at particular states for C35 (kernel-checked, see Lemmas/Interval.lean). -/

namespace If97.Iv
set_option maxRecDepth 100000

/-- p(−x, y) as a polynomial in x -/
def flipX (l : List SM) : List SM := l.map fun m => ⟨m.c * (-1) ^ m.I, m.d, m.I, m.J, m.K⟩
theorem evS_flipX (l : List SM) (x y z : ℝ) : evS (flipX l) x y z = evS l (-x) y z := by
  induction l with
  | nil => simp [flipX]
  | cons m l ih =>
    have : flipX (m :: l) = ⟨m.c * (-1) ^ m.I, m.d, m.I, m.J, m.K⟩ :: flipX l := rfl
    rw [this, evS_cons, ih, evS_cons]; simp only [SM.ev]; push_cast; rw [neg_pow x]; ring

/-- the coefficients of the saturated-liquid enthalpy of region 3a as a function of s -/
def h3a : List SM := [
  '''+",\n  ".join(h3a)+''']
theorem h3a_eq : (hs_region_h3a_s_IJn : List (Int × Int × ℝ)) = toTab h3a := by
  norm_num [hs_region_h3a_s_IJn, toTab, h3a]
theorem noZ_h3a : NoZ h3a := by decide +kernel

/-- the coefficients of the saturation pressure of region 3 as a function of h -/
def h2p : List SM := [
  '''+",\n  ".join(tab('h2p_sat_reg3_IJn'))+''']
theorem h2p_eq : (h2p_sat_reg3_IJn : List (Int × Int × ℝ)) = toTab h2p := by
  norm_num [h2p_sat_reg3_IJn, toTab, h2p]
theorem noZ_h2p : NoZ h2p := by decide +kernel
'''
for n,l,bs,doc,z,zc in L:
    s+=f"\n/-- {doc} -/\ndef {n} : List SM := {l}\ndef F_{n} : Fun := eval% mkFun {n}\ntheorem F_{n}_eq : F_{n} = mkFun {n} := by decide +kernel\ntheorem F_{n}_small : (mkFun {n}).Small := by decide +kernel\n"
    for i,b in enumerate(bs):
        xc,xr,D,yc,yr,E,c=b[1:-1].split(', ')
        s+=f"""private def tr{n}_{i} : Tree := eval% search F_{n} 40 {b}
private theorem ok{n}_{i} : verifyF F_{n} (nat_lit {xr}) (nat_lit {yr}) tr{n}_{i} (nat_lit {xc}) (nat_lit {D}) (nat_lit {yc})
    (nat_lit {E}) (nat_lit {c}) = true := by decide +kernel
theorem pos_{n}_{i} {{X Y : ℝ}} (hm : Box.Mem {b} X Y) : 0 < evS {n} X Y ({z}) := by
  have := sound F_{n}_eq F_{n}_small (by decide) ok{n}_{i} hm
  norm_num at this ⊢; exact this
"""
s+="\nend If97.Iv\n"
open('/verif/lean/Verif/Lemmas/Iv/W7.lean','w').write(s)
