import sys; sys.path.insert(0,'/verif/tools')
from bern import *
import math
P=[F(1),F('-0.9998684'),F('0.4982926'),F('-0.1595332'),F('0.0293641')]
N=9
T=[F((-1)**m, math.factorial(m)) for m in range(N)]
D=[(P[i] if i<5 else F(0))-T[i] for i in range(N)]
d=F('0.0000038')
b=F('0.695')
print('''import Mathlib.Data.Real.Basic
import Mathlib.Tactic.Ring
import Mathlib.Tactic.Positivity
/-!
Polynomial inequalities used for the accuracy of the fast exponential and logarithm. Generated by
/verif/tools/genpoly.py (Bernstein-basis certificates); checked here by `ring` and `positivity`.
-/
namespace CCGL.MathFn
''')
def neg(p): return [-x for x in p]
def addc(p,c): q=list(p); q[0]+=c; return q
def emit(n,p,a,b):
    s,k=lemma(n,[F(c) for c in p],a,b); print(n,k,len(s),file=sys.stderr)
    print(s)
emit('expPoly_up',addc(neg(D),d),0,b)
emit('expPoly_lo',addc(D,d),0,b)
# log: polynomial Q ~ 1/u on [1,2], degree n via Chebyshev interpolation
n=7
nodes=[1.5+0.5*math.cos(math.pi*(2*k+1)/(2*(n+1))) for k in range(n+1)]
# Newton interpolation with Fractions
xs=[F(round(x*10**6),10**6) for x in nodes]; ys=[1/x for x in xs]
dd=list(ys)
for j in range(1,n+1):
    for i in range(n,j-1,-1): dd[i]=(dd[i]-dd[i-1])/(xs[i]-xs[i-j])
Q=[F(0)]*(n+1); Q[0]=dd[n]
for k in range(n-1,-1,-1):
    # Q = Q*(x-xs[k]) + dd[k]
    R=[F(0)]*(n+1)
    for i in range(n):
        R[i+1]+=Q[i]; R[i]-=Q[i]*xs[k]
    R[n]-=Q[n]*xs[k]
    R[0]+=dd[k]; Q=R
Q=[F(round(c*10**9),10**9) for c in Q]
E=[F(1)]+neg(Q)   # 1 - u Q(u)
err=max(abs(sum(float(c)*(1+i/1000)**j for j,c in enumerate(E))) for i in range(1001))
print('err',err,file=sys.stderr)
dl=F(round(err*1.1*10**9)+1,10**9)
print('dl',dl,file=sys.stderr)
emit('logDer_up',addc(neg(E),dl),1,2)
emit('logDer_lo',addc(E,dl),1,2)
q=[F(0)]+[Q[i]/(i+1) for i in range(n+1)]
q[0]=-sum(q)
print(f"/-- Polynomial approximation of the logarithm on `[1, 2]`. -/\nnoncomputable def logQ (x : ℝ) : ℝ := {polystr(q)}\n")
print(f"/-- Its derivative. -/\nnoncomputable def logQ' (x : ℝ) : ℝ := {polystr(Q)}\n")
print(f"/-- Error bound of `logQ'`. -/\nnoncomputable def logDl : ℝ := {lit(dl)}\n")
# p(u)*ln2 - ln2 - log u, |.| <= eps  ; ln2 in [0.6931471803,0.6931471808], log u within dl*(u-1) of q(u)
l2=F('0.69314718')
for nm,co in (('F',['-1.15360271','3.04788415','-1.05187502','0.15824870']),('D',['-1.1536207104929913242752','3.0478841468943745615315','-1.0518750217176431040285','0.1582487026083649643648'])):
    p=[F(c) for c in co]; p[0]-=1
    G=[(p[i]*l2 if i<4 else F(0))-q[i] for i in range(len(q))]
    bd={'F':F('0.000456'),'D':F('0.000445')}[nm]
    emit('lnPoly%s_up'%nm,addc(neg(G),bd),1,2)
    emit('lnPoly%s_lo'%nm,addc(G,bd),1,2)
def mul(a,b):
    r=[F(0)]*(len(a)+len(b)-1)
    for i,x in enumerate(a):
        for j,y in enumerate(b): r[i+j]+=x*y
    return r
# square root: c (k - g)^2 (1 + 2 g)
for n,c,K,a,b in [('A1',F(1,2),F(1),F(0),F('0.4325')),('A2',F(1,8),F(2),F('0.4324'),F(1,2)),('B',F(1,4),F(3,2),F(0),F(1,2))]:
    for nm,rho in(('lo',F('0.4324')),('up',F('0.4325'))):
        k=K+rho
        h=[c*x for x in mul(mul([k,F(-1)],[k,F(-1)]),[F(1),F(2)])]
        q=addc(h,-F('0.93')) if nm=='lo' else addc(neg(h),F('1.0699'))
        emit(f'sqrt{n}_{nm}',q,a,b)
print('end CCGL.MathFn')
