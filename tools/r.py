"""Reverse functions, see t.py."""
from t import *
import t as T
PD,PU=rnd(PI,False),rnd(PI,True)
def inter(x,y):
    if x==E_ or y==E_: return E_
    a,b=max(x[0],y[0]),min(x[1],y[1])
    return E_ if a>b else (a,b)
def hull(x,y):
    if x==E_: return y
    if y==E_: return x
    return (min(x[0],y[0]),max(x[1],y[1]))
def rq(x,y):
    q=Fr(x)/Fr(y); n=round(q); return n, Fr(x)-n*Fr(y)
def fl(x,y):
    n,r=rq(x,y); return n-1 if r<0 else n
def ce(x,y):
    n,r=rq(x,y); return n+1 if r>0 else n
def rfr(q,up):
    return rnd(D(q.numerator)/D(q.denominator),up)
def fma(t,a,c,up): return rfr(Fr(t)*Fr(a)+Fr(c),up)
def shift(k,a,b,cl,cu): t=float(k); return (fma(t,a,cl,False),fma(t,b,cu,True))
def mirror(k,a,b,cl,cu): t=float(k); return (-fma(t,a,cu,True),-fma(t,b,cl,False))
def left(box,x):
    if x[0]==-math.inf: return (-math.inf,-sys.float_info.max)
    n,p,q=(fl(x[0],PD),PU,PD) if x[0]<0 else (fl(x[0],PU),PD,PU)
    r=inter(box(n,p,q),x)
    return inter(box(n+1,p,q),x) if r==E_ else r
def right(quo,box,x):
    if x[1]==math.inf: return (sys.float_info.max,math.inf)
    n,p,q=(quo(x[1],PD),PD,PU) if x[1]>0 else (quo(x[1],PU),PU,PD)
    r=inter(box(n,p,q),x)
    return inter(box(n-1,p,q),x) if r==E_ else r
ENT=(-math.inf,math.inf)
def sin_rev(c,x=ENT):
    if x==E_ or c==E_: return E_
    cc=inter(c,(-1.0,1.0))
    if cc==E_: return E_
    if cc==(-1,1): return x
    cl,cu=u_asin(*cc)
    box=lambda k,a,b: shift(k,a,b,cl,cu) if k%2==0 else mirror(-k,a,b,cl,cu)
    return hull(left(box,x),right(ce,box,x))
def cos_rev(c,x=ENT):
    if x==E_ or c==E_: return E_
    cc=inter(c,(-1.0,1.0))
    if cc==E_: return E_
    if cc==(-1,1): return x
    cl,cu=u_acos(*cc)
    box=lambda k,a,b: shift(k,a,b,cl,cu) if k%2==0 else mirror(-k-1,a,b,cl,cu)
    return hull(left(box,x),right(fl,box,x))
def tan_rev(c,x=ENT):
    if x==E_ or c==E_: return E_
    cl,cu=u_atan(*c)
    box=lambda k,a,b: shift(k,a,b,cl,cu)
    return hull(left(box,x),right(ce,box,x))
def cosh_rev(c,x=ENT):
    if x==E_ or c==E_ or c[1]<1: return E_
    r=u_acosh(*c)
    # an inexact bound is no solution: a part that consists of it alone is dropped
    ach=lambda v: (v+(v*v-1).sqrt()).ln()
    xl=c[0]>1; xu=c[1]!=math.inf and c[1]>1
    def part(p,lo_x,hi_x):
        q=inter(p,x)
        if q!=E_ and q[0]==q[1] and ((lo_x and q[0]==p[0]) or (hi_x and q[1]==p[1])): return E_
        return q
    return hull(part(r,xl,xu),part((-r[1],-r[0]),xu,xl))
def w(g):
    def h(*a):
        if any(isinstance(v,tuple) and v and v[0]=='d' for v in a):
            if any(v[2]==1000 for v in a): return ('d',E_,1000)
            return ('d',g(*[v[1] for v in a]),1001)
        return g(*a)
    return h
for n in ['sin_rev','cos_rev','tan_rev','cosh_rev']: NS['F_'+n]=w(globals()[n])
src=open('/repo/test/p1788/flavor/infsup/setbased/test_mpfr_bin_ieee754_flavor_rev_func.cpp').read()
src=re.sub(r'/\*.*?\*/',lambda m:'\n'*m.group(0).count('\n'),src,flags=re.S); src=re.sub(r'//[^\n]*','',src)
cnt={};bad=[];skip=[]
for m in re.finditer(r'BOOST_CHECK(_EQUAL)?\s*\((.*?)\);',src,flags=re.S):
    s=m.group(2); k=re.search(r'F<double>::(sin_rev|cos_rev|tan_rev|cosh_rev)\(',s)
    if not k: continue
    line=src[:m.start()].count('\n')+1
    try:
        if m.group(1):
            l,r=eval('('+cpp(s)+')',NS)
            ok=(l[2]==r[2] and same(l[1],r[1])) if (r!=E_ and r[0]=='d') else same(l,r)
            if not ok: bad.append((line,s.strip(),l,r))
        else:
            if not eval('('+cpp(s)+')',NS): bad.append((line,s.strip()))
    except Exception as e: skip.append((line,s.strip()[:120],repr(e)[:80])); continue
    cnt[k.group(1)]=cnt.get(k.group(1),0)+1
print(cnt,len(skip),len(bad))
for s in skip[:8]+bad[:40]: print(s)
