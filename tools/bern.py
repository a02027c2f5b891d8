"""Bernstein-basis certificates of polynomial non-negativity on an interval, as Lean lemmas (ring + positivity).
The certificate is only a hint: Lean's kernel checks the identity and the sign of every coefficient."""
from fractions import Fraction as F
from math import comb
def lit(q):
    q=F(q)
    s=f"{abs(q.numerator)}" if q.denominator==1 else f"{abs(q.numerator)} / {q.denominator}"
    return f"({'-' if q<0 else ''}{s})"
def shift(p,a):  # p(x+a)
    n=len(p); r=[F(0)]*n
    for i,c in enumerate(p):
        for j in range(i+1): r[j]+=c*comb(i,j)*F(a)**(i-j)
    return r
def bern(p,a,b):
    """coefs c_i with p(x)=sum c_i (x-a)^i (b-x)^(n-i)"""
    n=len(p)-1; L=F(b)-F(a)
    q=shift(p,a)  # in t=x-a
    # t^i = t^i * ((t + (L-t))/L)^(n-i)
    c=[F(0)]*(n+1)
    for i in range(n+1):
        for j in range(n-i+1):
            c[i+j]+=q[i]*comb(n-i,j)/L**(n-i)
    return c
def pieces(p,a,b,depth=0):
    c=bern(p,a,b)
    if all(x>=0 for x in c): return [(F(a),F(b),c)]
    if depth>12: raise Exception('not nonneg near %s'%float(a))
    m=(F(a)+F(b))/2
    return pieces(p,a,m,depth+1)+pieces(p,m,b,depth+1)
def horner(p,x='x'):
    s=lit(p[-1])
    for c in reversed(p[:-1]): s=f"({s} * {x} + {lit(c)})"
    return s
def polystr(p,x='x'):
    return ' + '.join((lit(c) if i==0 else f"{lit(c)} * {x} ^ {i}") for i,c in enumerate(p))
def lemma(name,p,a,b):
    p=[F(c) for c in p]
    out=[]; ps=pieces(p,a,b); n=len(p)-1
    for k,(l,r,c) in enumerate(ps):
        rhs=' + '.join(f"{lit(ci)} * (x - {lit(l)}) ^ {i} * ({lit(r)} - x) ^ {n-i}" for i,ci in enumerate(c) if ci!=0)
        out.append(f"theorem {name}_{k} (x : ℝ) (h1 : {lit(l)} ≤ x) (h2 : x ≤ {lit(r)}) : 0 ≤ {polystr(p)} := by\n"
          f"  have e1 : 0 ≤ x - {lit(l)} := sub_nonneg.2 h1\n  have e2 : 0 ≤ {lit(r)} - x := sub_nonneg.2 h2\n"
          f"  have e : {polystr(p)} = {rhs} := by ring\n  rw [e]; positivity\n")
    s=f"theorem {name} (x : ℝ) (h1 : {lit(a)} ≤ x) (h2 : x ≤ {lit(b)}) : 0 ≤ {polystr(p)} := by\n"
    for k,(l,r,c) in enumerate(ps[:-1]):
        prev = "h1" if k==0 else f"g{k}"
        s+=f"  rcases le_total x {lit(r)} with h{k+3} | g{k+1}\n  · exact {name}_{k} x {prev} h{k+3}\n"
    prev = "h1" if len(ps)==1 else f"g{len(ps)-1}"
    s+=f"  exact {name}_{len(ps)-1} x {prev} h2\n"
    out.append(s)
    return '\n'.join(out),len(ps)
