from emit import *
r1=tab('R1.lean','r1_IJn')
G=[(I,J-1,c*J) for I,J,c in r1]
hx,px=chain({I for I,J,c in r1}); hy,py=chain({J for I,J,c in r1}|{J-1 for I,J,c in r1})
Tph=tab('R1.lean','ph2T_reg1_IJn'); Tps=tab('R1.lean','ps2T_reg1_IJn'); Ths=tab('R1.lean','hs2p_reg1_IJn')
s=f"""import Verif.Lemmas.Tm.Par
import Verif.Lemmas.Gibbs
import Verif.Lemmas.PolyReal

/-! The region 1 tables of the code in the form the Taylor models use. -/

namespace If97.Tm
set_option maxRecDepth 100000

/-! ### the Gibbs function: addition chains for (7.1 - π) and (τ - 1.222) -/

def chx1 : List (Nat × Nat) := {chl(2,px)}
def chy1 : List (Nat × Nat) := {chl(3,py)}
def ex1 : List Int := {intl(hx[::-1])}
def ey1 : List Int := {intl(hy[::-1])}
theorem ex1_eq : powE chx1 [1, 0] = ex1 := by decide +kernel
theorem ey1_eq : powE chy1 [-1, 1, 0] = ey1 := by decide +kernel

/-- γ_τ -/
def tg1 : List (Nat × List (Nat × Co)) :=
  {grp(G,hx,hy)}
/-- γ -/
def t01 : List (Nat × List (Nat × Co)) :=
  {grp(r1,hx,hy)}

"""
def same(nm,rel,flatargs,model):
    return f"""theorem {nm} : List.Forall₂ {rel} ({flatargs}) ({model} : List (Int × Int × ℝ)) := by
  unfold {model}
  repeat' first | exact .nil | refine .cons ⟨by decide +kernel, by decide +kernel, by norm_num [Co.val]⟩ ?_
"""
def tabl(nm,tb,xs,ys,model,rel,doc):
    hx,px=chain({I for I,J,c in tb}); hy,py=chain({J for I,J,c in tb})
    sx=3 if -1 in hx[:3] else 2; sy=3 if -1 in hy[:3] else 2
    st=lambda k:'[1, 0]' if k==2 else '[-1, 1, 0]'
    return f"""
/-! ### {doc} -/

def chx{nm} : List (Nat × Nat) := {chl(sx,px)}
def chy{nm} : List (Nat × Nat) := {chl(sy,py)}
def ex{nm} : List Int := {intl(hx[::-1])}
def ey{nm} : List Int := {intl(hy[::-1])}
theorem ex{nm}_eq : powE chx{nm} {st(sx)} = ex{nm} := by decide +kernel
theorem ey{nm}_eq : powE chy{nm} {st(sy)} = ey{nm} := by decide +kernel
def tb{nm} : List (Nat × List (Nat × Co)) :=
  {grp(tb,hx,hy)}
def fl{nm} : List (Int × Int × Co) := {flatl(tb)}
theorem fl{nm}_eq : flat ex{nm} ey{nm} tb{nm} = fl{nm} := by decide +kernel
theorem tb{nm}_ok : tbOk tb{nm} ex{nm}.length ey{nm}.length = true := by decide +kernel
theorem {nm}_same : List.Forall₂ {rel} fl{nm} ({model} : List (Int × Int × ℝ)) := by
  unfold fl{nm} {model}
  repeat' first | exact .nil | refine .cons ⟨by norm_num, by norm_num, by norm_num [Co.val]⟩ ?_
"""
def gt(nm,tb,model,rel,ex,ey):
    return f"""def fl{nm} : List (Int × Int × Co) := {flatl(tb)}
theorem fl{nm}_eq : flat {ex} {ey} t{nm} = fl{nm} := by decide +kernel
theorem t{nm}_ok : tbOk t{nm} {ex}.length {ey}.length = true := by decide +kernel
theorem {nm}_same : List.Forall₂ {rel} fl{nm} ({model} : List (Int × Int × ℝ)) := by
  unfold fl{nm} {model}
  repeat' first | exact .nil | refine .cons ⟨by norm_num, by norm_num, by norm_num [Co.val]⟩ ?_
"""
if __name__=='__main__':
    s+=gt('g1',G,'r1_IJn','SameJ','ex1','ey1')+gt('01',r1,'r1_IJn','SameT','ex1','ey1')
    s+=tabl('Ph1',Tph,0,0,'ph2T_reg1_IJn','SameT','T(p, h): powers of p and of h/2500 + 1')
    s+=tabl('Ps1',Tps,0,0,'ps2T_reg1_IJn','SameT','T(p, s): powers of p and of s + 2')
    s+=tabl('Hs1',Ths,0,0,'hs2p_reg1_IJn','SameT','p(h, s): powers of h/3400 + 0.05 and of s/7.6 + 0.05')
    s+="\nend If97.Tm\n"
    s=s.replace('def fl01','def fl01').replace('theorem 01_same','theorem z1_same')
    open('/verif/lean/Verif/Lemmas/Tm/R1.lean','w').write(s)
