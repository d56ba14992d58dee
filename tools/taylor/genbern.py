from bern import *
def q(x): return f'({x.numerator} / {x.denominator})' if x.denominator!=1 else f'{x.numerator}'
out="""import Verif.Lemmas.Saturation

/-! The saturation pressure between 350 °C and the critical temperature lies between two fourth powers of quadratic
polynomials (coefficients in the Bernstein basis, generated). -/

namespace If97
namespace Sat
open Set

private theorem bern_pos {c0 c1 c2 c3 c4 c5 c6 c7 c8 s t : ℝ} (hs : 0 ≤ s) (ht : 0 ≤ t) (hst : 0 < s + t) (h0 : 0 < c0) (h1 : 0 < c1)
    (h2 : 0 < c2) (h3 : 0 < c3) (h4 : 0 < c4) (h5 : 0 < c5) (h6 : 0 < c6) (h7 : 0 < c7) (h8 : 0 < c8) :
    0 < c0 * t ^ 8 + c1 * s * t ^ 7 + c2 * s ^ 2 * t ^ 6 + c3 * s ^ 3 * t ^ 5 + c4 * s ^ 4 * t ^ 4 + c5 * s ^ 5 * t ^ 3 +
      c6 * s ^ 6 * t ^ 2 + c7 * s ^ 7 * t + c8 * s ^ 8 := by
  rcases hs.eq_or_lt with h | h
  · subst h
    have : 0 < t := by linarith
    have : 0 < c0 * t ^ 8 := by positivity
    simpa using this
  · positivity

private theorem bern_pos6 {c0 c1 c2 c3 c4 c5 c6 s t : ℝ} (hs : 0 ≤ s) (ht : 0 ≤ t) (hst : 0 < s + t) (h0 : 0 < c0) (h1 : 0 < c1)
    (h2 : 0 < c2) (h3 : 0 < c3) (h4 : 0 < c4) (h5 : 0 < c5) (h6 : 0 < c6) :
    0 < c0 * t ^ 6 + c1 * s * t ^ 5 + c2 * s ^ 2 * t ^ 4 + c3 * s ^ 3 * t ^ 3 + c4 * s ^ 4 * t ^ 2 + c5 * s ^ 5 * t +
      c6 * s ^ 6 := by
  rcases hs.eq_or_lt with h | h
  · subst h
    have : 0 < t := by linarith
    have : 0 < c0 * t ^ 6 := by positivity
    simpa using this
  · positivity

/-- the quadratics -/
noncomputable def bq (c T : ℝ) : ℝ := 2.675 * (T / 647.096) ^ 2 - 1.1753 * (T / 647.096) + c

private theorem Qf_clear (b T : ℝ) (h : T ≠ 650.17534844798) :
    Qf b (th T) * (650.17534844798 - T) ^ 2 = qE b * ((650.17534844798 - T) * T + 0.23855557567849) ^ 2 +
      qF b * (650.17534844798 - T) * ((650.17534844798 - T) * T + 0.23855557567849) + qG b * (650.17534844798 - T) ^ 2 := by
  have hn : T - 650.17534844798 ≠ 0 := sub_ne_zero.2 h
  rw [Qf_eq, th]
  generalize qE b = e, qF b = f, qG b = g
  field_simp
  ring

private theorem Qs_clear (b T : ℝ) (h : T ≠ 650.17534844798) :
    (2 * qA (th T) * b + qB (th T)) * (650.17534844798 - T) ^ 2 =
      (2 * b - 17.073846940092) * ((650.17534844798 - T) * T + 0.23855557567849) ^ 2 +
      (2 * 1167.0521452767 * b + 12020.824702470) * (650.17534844798 - T) * ((650.17534844798 - T) * T + 0.23855557567849) +
      (-(2 * 724213.16703206) * b - 3232555.0322333) * (650.17534844798 - T) ^ 2 := by
  have hn : T - 650.17534844798 ≠ 0 := sub_ne_zero.2 h
  rw [qA, qB, th]
  field_simp
  norm_num
  ring
"""
L=F('23.946')
def ident(cs,n,sg):
    ts=[]
    for k,c in enumerate(cs):
        f=[q(sg*c)]
        if k: f.append('s'+(f' ^ {k}' if k>1 else ''))
        if n-k: f.append('t'+(f' ^ {n-k}' if n-k>1 else ''))
        ts.append(' * '.join(f))
    return ' + '.join(ts)
for nm,c,sg in (('lo','0.66744',1),('hi','0.66763',-1)):
    x=sc(1/Tc,T); b=add(add(sc(F('2.675'),mul(x,x)),sc(F('-1.1753'),x)),[F(c)])
    p=Q(b)
    def rec(a,e):
        cs=bern(p,a,e)
        if all(sg*k>0 for k in cs): return [(a,e,cs)]
        m=(a+e)/2; return rec(a,m)+rec(m,e)
    pcs=rec(F(0),L)
    S='' if sg>0 else '-'
    for i,(a,e,cs) in enumerate(pcs):
        A=F('623.15')+a; E=F('623.15')+e
        out+=f"""
private theorem {nm}_{i} {{T : ℝ}} (h1 : {q(A)} ≤ T) (h2 : T ≤ {q(E)}) : 0 < {S}(Qf (bq {c} T) (th T)) * (650.17534844798 - T) ^ 2 := by
  have hT : T ≠ 650.17534844798 := by intro h; subst h; norm_num at h2
  have hs : 0 ≤ T - {q(A)} := by linarith
  have ht : 0 ≤ {q(E)} - T := by linarith
  have key := bern_pos (c0 := {q(sg*cs[0])}) {' '.join(f'(c{k} := {q(sg*cs[k])})' for k in range(1,9))} hs ht (by norm_num) (by norm_num) (by norm_num) (by norm_num)
    (by norm_num) (by norm_num) (by norm_num) (by norm_num) (by norm_num) (by norm_num)
  refine lt_of_lt_of_eq key ?_
  {'rw [neg_mul, Qf_clear _ _ hT, bq, qE, qF, qG]' if sg<0 else 'rw [Qf_clear _ _ hT, bq, qE, qF, qG]'}
  norm_num
  ring
"""
    cs=bern(Qs(b),F(0),L); A=F('623.15'); E=A+L
    out+=f"""
private theorem {nm}_s {{T : ℝ}} (h1 : 623.15 ≤ T) (h2 : T ≤ 647.096) : 2 * qA (th T) * bq {c} T + qB (th T) < 0 := by
  have hT : T ≠ 650.17534844798 := by intro h; subst h; norm_num at h2
  have hs : 0 ≤ T - {q(A)} := by norm_num at h1 ⊢; linarith
  have ht : 0 ≤ {q(E)} - T := by norm_num at h2 ⊢; linarith
  have key := bern_pos6 (c0 := {q(-cs[0])}) {' '.join(f'(c{k} := {q(-cs[k])})' for k in range(1,7))} hs ht (by norm_num) (by norm_num) (by norm_num) (by norm_num)
    (by norm_num) (by norm_num) (by norm_num) (by norm_num)
  have e : 0 < -(2 * qA (th T) * bq {c} T + qB (th T)) * (650.17534844798 - T) ^ 2 := by
    refine lt_of_lt_of_eq key ?_
    rw [neg_mul, Qs_clear _ _ hT, bq]
    norm_num
    ring
  have := (pos_iff_pos_of_mul_pos e).2 (by have : 650.17534844798 - T ≠ 0 := by intro h; exact hT (by linarith)
                                           positivity)
  linarith
"""
    out+=f"""
theorem psat_{nm} {{T : ℝ}} (h1 : 623.15 ≤ T) (h2 : T ≤ 647.096) : {'bq 0.66744 T ^ 4 < psat T' if sg>0 else 'psat T < bq 0.66763 T ^ 4'} := by
  have hm : T ∈ Icc (273 : ℝ) 648 := ⟨by linarith, by linarith⟩
  have hp : 0 < (650.17534844798 - T) ^ 2 := by have : 0 < 650.17534844798 - T := by norm_num at h2 ⊢; linarith
                                                positivity
  have key : 0 < {S}(Qf (bq {c} T) (th T)) * (650.17534844798 - T) ^ 2 := by
"""
    for i,(a,e,cs) in enumerate(pcs[:-1]):
        E=F('623.15')+e
        out+=f"    rcases le_total T {q(E)} with g{i} | g{i}\n    · exact {nm}_{i} (by norm_num at *; linarith) g{i}\n"
    out+=f"    exact {nm}_{len(pcs)-1} (by norm_num at *; linarith) (by norm_num at *; linarith)\n"
    out+="  have hq := (pos_iff_pos_of_mul_pos key).2 hp\n"
    out+= f"  exact lt_psat hm (lo_s h1 h2) (by unfold bq; nlinarith [sq_nonneg (T / 647.096 - 1)]) hq\n" if sg>0 else f"  exact psat_lt hm (hi_s h1 h2) (by linarith)\n"
out+="\nend Sat\nend If97\n"
open('/verif/lean/Verif/Lemmas/SatBound.lean','w').write(out)
