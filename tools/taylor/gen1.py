import json,sys,math
sys.path.insert(0,'/tmp/iv')
from proto import psat
O='/verif/lean/Verif/Lemmas/Tm/'
def tr(s): # 'x(l)(l)' -> Lean
    return s.replace('(l)',' l').replace('x(',' .x(').strip() 
def lean(s):
    # recursive
    pos=0
    def p():
        nonlocal pos
        c=s[pos]; pos+=1
        if c=='l': return '.l'
        assert s[pos]=='('; pos+=1; a=p(); assert s[pos]==')'; pos+=1
        assert s[pos]=='('; pos+=1; b=p(); assert s[pos]==')'; pos+=1
        w=lambda t: t if t=='.l' else f'({t})'
        return f'.{c} {w(a)} {w(b)}'
    return p()
def mods(nm,leaf,R,k,doc):
    L=json.load(open(f'/tmp/tm/{nm}.json'))
    tot=sum(x['n'] for x in L); per=tot/k; out=[[]]; acc=0
    for i,x in enumerate(L):
        if acc>=per*len(out) and len(out)<k: out.append([])
        out[-1].append((i,x)); acc+=x['n']
    N=nm.capitalize()
    for j,g in enumerate(out):
        s=f"import Verif.Lemmas.Tm.Leaf1\n\n/-! {doc}, part {j} (generated subdivisions, checked in the kernel) -/\n\nnamespace If97.Tm\nset_option maxRecDepth 100000\n\n"
        for i,x in g:
            s+=f"theorem {nm}_{i} : verify ({leaf} {x['xr']} {x['yr']}) {x['xr']} {x['yr']} ({lean(x['tree'])})\n    {x['xc']} {x['D']} {x['yc']} {x['E']} = true := by decide +kernel\n"
        s+="\nend If97.Tm\n"
        open(O+f'{N}_{j}.lean','w').write(s)
    return len(out),len(L)
kk={}
kk['ph1']=mods('ph1','leafPh1 P12 25 1000',None,6,'T(p, h) in region 1')
kk['ps1']=mods('ps1','leafPs1 P12 25 1000',None,4,'T(p, s) in region 1')
kk['hs1']=mods('hs1','leafHs1 P12 15 1000 25 1000',None,14,'p(h, s) and T(h, s) in region 1')
L=json.load(open('/tmp/tm/ph1.json'))
from fractions import Fraction as Fr
s="""import Verif.Lemmas.Tm.Leaf1
import Verif.Lemmas.Stability

/-! Strips covering region 1. -/

namespace If97.Tm

/-- the box |p - xc/D| ≤ xr/D, |τ - yc/E| ≤ yr/E -/
structure Strip where
  xr : Nat
  yr : Nat
  xc : Nat
  D : Nat
  yc : Nat
  E : Nat

def Strip.Mem (s : Strip) (p y : ℝ) : Prop := |p * s.D - s.xc| ≤ s.xr ∧ |y * s.E - s.yc| ≤ s.yr

def strips1 : List Strip :=
  [%s]

theorem Strip.mem_of {s : Strip} {Ts Ta Tb T p pl ph : ℝ} (hs : 0 < Ts) (ha : 0 < Ta) (h1 : Ta ≤ T) (h2 : T ≤ Tb)
    (hp1 : pl ≤ p) (hp2 : p ≤ ph) (hx1 : (s.xc : ℝ) - s.xr ≤ pl * s.D) (hx2 : ph * s.D ≤ (s.xc : ℝ) + s.xr)
    (hy1 : ((s.yc : ℝ) - s.yr) ≤ Ts / Tb * s.E) (hy2 : Ts / Ta * s.E ≤ ((s.yc : ℝ) + s.yr)) :
    s.Mem p (Ts / T) := by
  have hT : 0 < T := lt_of_lt_of_le ha h1
  have e1 : Ts / T ≤ Ts / Ta := div_le_div_of_nonneg_left hs.le ha h1
  have e2 : Ts / Tb ≤ Ts / T := div_le_div_of_nonneg_left hs.le hT h2
  have f1 := mul_le_mul_of_nonneg_right e1 (Nat.cast_nonneg (α := ℝ) s.E)
  have f2 := mul_le_mul_of_nonneg_right e2 (Nat.cast_nonneg (α := ℝ) s.E)
  have f3 := mul_le_mul_of_nonneg_right hp1 (Nat.cast_nonneg (α := ℝ) s.D)
  have f4 := mul_le_mul_of_nonneg_right hp2 (Nat.cast_nonneg (α := ℝ) s.D)
  constructor <;> rw [abs_le] <;> constructor <;> linarith

"""%(",\n   ".join("⟨%d, %d, %d, %d, %d, %d⟩"%(x['xr'],x['yr'],x['xc'],x['D'],x['yc'],x['E']) for x in L))
for i,x in enumerate(L):
    a=x['a']; lo=Fr(x['xc']-x['xr'],x['D'])
    if i==0: continue
    b=math.floor(psat(a)**0.25*(1-1e-6)*10**7)/10**7
    assert Fr(str(b))**4>lo+Fr(1,10**7)*Fr(101,100),(a,)
    s+=f"""theorem lo1_{i} : {lo.numerator} / {lo.denominator} + 1e-7 < Sat.psat {a} := by
  refine lt_trans ?_ (Sat.lt_psat (b := {b}) (by norm_num) ?_ (by norm_num) ?_)
  · norm_num
  · unfold Sat.qA Sat.qB Sat.th; norm_num
  · unfold Sat.Qf Sat.qA Sat.qB Sat.qC Sat.th; norm_num
"""
s+="""
theorem cover1 {p T : ℝ} (h : InRange 1 p T) : ∃ s ∈ strips1, s.Mem p (1386 / T) := by
  obtain ⟨-, hp, h1, h2, hs, h100⟩ : (1 : Int) = 1 ∧ 0 < p ∧ 273.1499999 ≤ T ∧ T ≤ 623.15 ∧ Sat.psat T ≤ p + 1e-7 ∧ p ≤ 100 := by
    rcases h with h | h | h
    · exact h
    · exact absurd h.1 (by decide)
    · exact absurd h.1 (by decide)
"""
for i,x in enumerate(L[:-1]):
    s+=f"  rcases le_or_gt T {x['c']} with k{i} | k{i}\n"
    s+="  · "+case(i,x) if False else "  · exact c1_%d %s k%d hs h100\n"%(i,'h1' if i==0 else 'k%d.le'%(i-1),i)
n=len(L)-1
s+="  · exact c1_%d k%d.le h2 hs h100\n" % (n,n-1) if False else "  exact c1_%d k%d.le h2 hs h100\n"%(n,n-1)
pre=""
for i,x in enumerate(L):
    lo=Fr(x['xc']-x['xr'],x['D'])
    a='273.1499999' if i==0 else x['a']
    pre+=f"""theorem c1_{i} {{p T : ℝ}} (h1 : {a} ≤ T) (h2 : T ≤ {x['c']}) (hs : Sat.psat T ≤ p + 1e-7) (h3 : p ≤ 100) :
    ∃ s ∈ strips1, s.Mem p (1386 / T) := by
"""
    if i==0:
        pre+="""  have k : Sat.psat 273.1499999 ≤ Sat.psat T := Iv.psat_mono (by norm_num) h1 (by norm_num at *; linarith)
  have k0 := lo1_0
"""
    else:
        pre+=f"""  have k : Sat.psat {a} ≤ Sat.psat T := Iv.psat_mono (by norm_num) h1 (by norm_num at *; linarith)
  have k0 := lo1_{i}
"""
    pre+=f"""  exact ⟨strips1[{i}], List.getElem_mem _, Strip.mem_of (pl := {lo.numerator} / {lo.denominator}) (by norm_num) (by norm_num) h1 h2 (by linarith) h3
    (by norm_num [strips1]) (by norm_num [strips1]) (by norm_num [strips1]) (by norm_num [strips1])⟩
"""
i0=L[0]; lo=Fr(i0['xc']-i0['xr'],i0['D'])
s=s.replace("theorem lo1_1 ",f"""theorem lo1_0 : {lo.numerator} / {lo.denominator} + 1e-7 < Sat.psat 273.1499999 := by
  refine lt_trans ?_ (Sat.lt_psat (b := {math.floor(psat(273.1499999)**0.25*(1-1e-6)*10**7)/10**7}) (by norm_num) ?_ (by norm_num) ?_)
  · norm_num
  · unfold Sat.qA Sat.qB Sat.th; norm_num
  · unfold Sat.Qf Sat.qA Sat.qB Sat.qC Sat.th; norm_num
theorem lo1_1 """,1)
j=s.index("\ntheorem cover1 ")
s=s[:j]+"\n"+pre+s[j:]
s+="\nend If97.Tm\n"
open(O+'Cover1.lean','w').write(s)
print(kk, float(lo), psat(273))
