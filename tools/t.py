"""Compares the assertions of the project's tests on transcendental functions with the tightest enclosures, computed with 900 digits.
Run: python3 t.py (forward functions), python3 r.py (sin_rev, cos_rev, tan_rev as in Verif/Model/RevTrig.lean, cosh_rev)."""
import re,sys
from decimal import Decimal as D, getcontext
from fractions import Fraction as Fr
import math
getcontext().prec=900; getcontext().Emax=10**17; getcontext().Emin=-10**17
def dpi():
    # Machin
    def at(inv):
        x=D(1)/inv; s=t=x; n=1; x2=x*x
        while True:
            t*=-x2; n+=2; d=t/n
            if abs(d)<D(10)**-890: return s
            s+=d
    return 4*(4*at(5)-at(239))
PI=dpi()
def sincos(x):
    k=(x/(PI/2)).to_integral_value(); r=x-k*(PI/2)
    s=t=r; n=1
    while t!=0 and abs(t)>D(10)**-880:
        t*=-r*r/((n+1)*(n+2)); n+=2; s+=t
    c=t=D(1); n=0
    while t!=0 and abs(t)>D(10)**-880:
        t*=-r*r/((n+1)*(n+2)); n+=2; c+=t
    k=int(k)%4
    return [(s,c),(c,-s),(-s,-c),(-c,s)][k]
def atan(x):
    if x<0: return -atan(-x)
    if x>1: return PI/2-atan(1/x)
    n=0
    while x>D('0.05'): x=x/(1+(1+x*x).sqrt()); n+=1
    s=t=x; k=1
    while t!=0 and abs(t)>D(10)**-880:
        t*=-x*x; k+=2; s+=t/k
    return s*2**n
INF=D('Infinity')
def ex(q): return INF if q==math.inf else -INF if q==-math.inf else D(q) # exact Decimal
LN2=D(2).ln(); LN10=D(10).ln()
def sinh(x): 
    if abs(x)<D(10)**-30:
        return x+x**3/6+x**5/120+x**7/5040+x**9/362880
    return (x.exp()-(-x).exp())/2
def rnd(v,up):
    """directed rounding of the Decimal v to double; values within 1e-700 relative of a double are taken to be exact"""
    if v==INF: return math.inf
    if v==-INF: return -math.inf
    if v==0: return 0.0
    # huge
    M=D(sys.float_info.max)
    if v>M*(1+D(10)**-700): return math.inf if up else sys.float_info.max
    if v<-M*(1+D(10)**-700): return -sys.float_info.max if up else -math.inf
    if abs(v)<D(10)**-400:
        tiny=5e-324
        return (tiny if v>0 else -0.0) if up else (0.0 if v>0 else -tiny)
    f=float(v)   # correctly rounded nearest by Python? go through Fraction for safety
    if math.isinf(f): f=math.copysign(sys.float_info.max,f)
    if abs(D(f)-v)<=abs(v)*D(10)**-700: return f
    if up: 
        while D(f)<v: f=math.nextafter(f,math.inf)
        while D(math.nextafter(f,-math.inf))>=v: f=math.nextafter(f,-math.inf)
    else:
        while D(f)>v: f=math.nextafter(f,-math.inf)
        while D(math.nextafter(f,math.inf))<=v: f=math.nextafter(f,math.inf)
    return f
E_='empty'
def box(lo,hi): return (rnd(lo,False),rnd(hi,True))
def mono(f,a,b,ninf,pinf,inc=True):
    g=lambda t: ninf if t==-math.inf else pinf if t==math.inf else f(D(t))
    return box(g(a),g(b)) if inc else box(g(b),g(a))
def u_exp(a,b): return mono(lambda t:t.exp(),a,b,D(0),INF)
def p_base(base,LNb):
    def f(t):
        if t==t.to_integral_value() and abs(t)<3000: return D(base)**int(t) if t>=0 else 1/(D(base)**int(-t))
        return (t*LNb).exp()
    return f
def u_exp2(a,b): return mono(p_base(2,LN2),a,b,D(0),INF)
def u_exp10(a,b): return mono(p_base(10,LN10),a,b,D(0),INF)
def ulog(L):
    def g(a,b):
        if b<=0: return E_
        f=lambda t: -INF if t<=0 else t.ln()/L
        return mono(f,a,b,-INF,INF)
    return g
u_log=ulog(D(1)); u_log2=ulog(LN2); u_log10=ulog(LN10)
def trig(which):
    def g(a,b):
        if math.isinf(a) or math.isinf(b): return (-1.0,1.0)
        A,B=D(a),D(b)
        f=lambda t: sincos(t)[which]
        lo=min(f(A),f(B)); hi=max(f(A),f(B))
        # maxima at off+2k pi
        off = PI/2 if which==0 else D(0)
        def hit(o):
            k=((A-o)/(2*PI)).to_integral_value(rounding='ROUND_CEILING')
            return o+k*2*PI<=B
        if hit(off): hi=D(1)
        if hit(off+PI): lo=D(-1)
        return box(lo,hi)
    return g
u_sin=trig(0); u_cos=trig(1)
def u_tan(a,b):
    if math.isinf(a) or math.isinf(b): return (-math.inf,math.inf)
    A,B=D(a),D(b)
    k=((A-PI/2)/PI).to_integral_value(rounding='ROUND_CEILING')
    if PI/2+k*PI<=B: return (-math.inf,math.inf)
    f=lambda t:(lambda sc: sc[0]/sc[1])(sincos(t))
    return box(f(A),f(B))
def u_asin(a,b):
    a=max(a,-1.0); b=min(b,1.0)
    if a>b: return E_
    f=lambda t: PI/2 if t==1 else -PI/2 if t==-1 else atan(t/(1-t*t).sqrt())
    return box(f(D(a)),f(D(b)))
def u_acos(a,b):
    a=max(a,-1.0); b=min(b,1.0)
    if a>b: return E_
    f=lambda t: D(0) if t==1 else PI if t==-1 else PI/2-atan(t/(1-t*t).sqrt())
    return box(f(D(b)),f(D(a)))
def u_atan(a,b): return mono(atan,a,b,-PI/2,PI/2)
def u_sinh(a,b): return mono(sinh,a,b,-INF,INF)
def cosh(t): return (t.exp()+(-t).exp())/2
def u_cosh(a,b):
    m=0.0 if a<=0<=b else min(abs(a),abs(b)); M=max(abs(a),abs(b))
    return mono(cosh,m,M,INF,INF)
def u_tanh(a,b): return mono(lambda t: sinh(t)/cosh(t) if abs(t)<2000 else (1-D(10)**-300 if t>0 else -1+D(10)**-300),a,b,D(-1),D(1))
def asinh(x):
    if x<0: return -asinh(-x)
    return (x+(x*x+1).sqrt()).ln()
def u_asinh(a,b): return mono(asinh,a,b,-INF,INF)
def u_acosh(a,b):
    if b<1: return E_
    a=max(a,1.0)
    return mono(lambda x:(x+(x*x-1).sqrt()).ln(),a,b,-INF,INF)
def u_atanh(a,b):
    a=max(a,-1.0); b=min(b,1.0)
    if b<=-1 or a>=1: return E_
    return mono(lambda x: INF if x==1 else -INF if x==-1 else ((1+x)/(1-x)).ln()/2,a,b,-INF,INF)
def u_sqrt(a,b):
    if b<0: return E_
    return mono(lambda x:x.sqrt(),max(a,0.0),b,D(0),INF)
def b_atan2(y,x):
    (c,d),(a,b)=y,x
    if a==b==0 and c==d==0: return E_
    A,B,C,DD=map(ex,(a,b,c,d))
    def at(y,x):  # closure values, y/x limits; no (0,0)
        if x==0 and y==0: return None
        if y.is_infinite() and x.is_infinite():
            return None
        if y.is_infinite(): return PI/2 if y>0 else -PI/2
        if x.is_infinite(): return D(0) if x>0 else (PI if y>=0 else -PI)
        if x==0: return PI/2 if y>0 else -PI/2
        if y==0: return D(0) if x>0 else PI
        r=atan(y/x)
        return r if x>0 else (r+PI if y>0 else r-PI)
    vals=[]
    def add(v): vals.append(v)
    # split into the closed quadrants parts; atan2 monotone on each; sup/inf over corners with limits
    def part(y0,y1,x0,x1):
        # closed box in one quadrant (signs fixed); collect limit values
        ys={y0,y1}; xs={x0,x1}
        for y in ys:
            for x in xs:
                if x==0 and y==0: continue
                if y.is_infinite() and x.is_infinite():
                    continue
                v=at(y,x)
                if v is not None: add(v)
        # limits at corners (0,0) and (inf,inf): along both edges
        if (D(0) in ys) and (D(0) in xs):
            ym=[y for y in ys if y!=0]; xm=[x for x in xs if x!=0]
            if ym: add(PI/2 if ym[0]>0 else -PI/2)
            if xm: add(at(D(0),xm[0]) if not xm[0].is_infinite() else at(D(0),D(1).copy_sign(xm[0])))
        iy=[y for y in ys if y.is_infinite()]; ix=[x for x in xs if x.is_infinite()]
        if iy and ix:
            add(PI/2 if iy[0]>0 else -PI/2)
            if ix[0]>0: add(D(0))
            else: add(PI if iy[0]>0 else -PI)
    def clip(lo,hi,s):
        if s>0: lo=max(lo,D(0))
        else: hi=min(hi,D(0))
        return (lo,hi) if lo<=hi else None
    for sy in (1,-1):
        for sx in (1,-1):
            Y=clip(C,DD,sy); X=clip(A,B,sx)
            if Y is None or X is None: continue
            if Y[0]==Y[1]==0 and X[0]==X[1]==0: continue
            if sy<0 and Y[1]==0 and Y[0]<0 and sx<0 and X[0]<0:
                # below the cut: values approach -pi
                add(-PI)
            if sy<0 and Y[0]==Y[1]==0 and sx<0:
                add(PI); 
                continue
            part(Y[0],Y[1],X[0],X[1])
    return box(min(vals),max(vals))
def b_pow(x,y):
    (a,b),(c,d)=x,y
    if b<0: return E_
    a=max(a,0.0)
    if b==0 and d<=0: return E_
    vals=[]
    def pw(x,y):
        if y==0: return D(1)
        if x==1: return D(1)
        if math.isinf(x):
            return INF if y>0 else D(0)
        if x==0: return D(0) if y>0 else INF
        if math.isinf(y):
            return INF if (y>0)==(x>1) else D(0)
        X,Y=D(x),D(y)
        fx=Fr(x); fy=Fr(y)
        if fy.denominator<=64 and abs(fy.numerator)<3000:
            r=X
            q=fy.denominator
            while q>1: r=r.sqrt(); q//=2
            n=int(fy.numerator)
            return r**n if n>0 else 1/(r**(-n))
        return (Y*X.ln()).exp()
    xs={a,b}; ys={c,d}
    if a<1<b: xs.add(1.0)
    if c<0<d: ys.add(0.0)
    if b==0:
        # only x = 0, y > 0
        return (0.0,0.0)
    for xx in xs:
        for yy in ys:
            vals.append(pw(xx,yy))
    if a==0:
        # x tends to 0
        if d>0: vals.append(D(0))
        if c<0: vals.append(INF)
    if math.isinf(b):
        if d>0: vals.append(INF)
        if c<0: vals.append(D(0))
    return box(min(vals),max(vals))
# --- parsing
def same(p,q): 
    if p==E_ or q==E_: return p==q
    return p[0]==q[0] and p[1]==q[1]
class Dec: ill,trv,defd,dac,com=range(5)
def stod(s):
    m=re.match(r'[+-]?0[xX][0-9a-fA-F]*\.?[0-9a-fA-F]*([pP][+-]?\d+)?',s)   # std::stod stops where the number ends
    return float.fromhex(m.group(0)) if m and 'X' in s.upper() else float(s)
def flt(x):
    import struct
    return struct.unpack('f',struct.pack('f',x))[0]
def cpp(e):
    e=re.sub(r'std::stof\(("[^"]*")\)',r'flt(stod(\1))',e)
    e=re.sub(r'(?<![\w.])(-?\d+\.\d*)f\b',r'flt(\1)',e)
    e=e.replace('REP<float>','REPF').replace('REP_DEC<float>','REPD')
    e=re.sub(r'F<(?:float|double)>::((?:empty|entire|nai)\w*)\(',r'F_\1(',e)
    e=re.sub(r'std::stod\(("[^"]*")\)',r'stod(\1)',e)
    e=re.sub(r'F<double>::(\w+)',r'F_\1',e)
    e=e.replace('REP<double>','REP').replace('REP_DEC<double>','REPD').replace('DEC::def','1002').replace('DEC::ill','1000').replace('DEC::trv','1001').replace('DEC::dac','1003').replace('DEC::com','1004')
    return e
U={n[2:]:g for n,g in list(globals().items()) if n.startswith('u_')}
B={n[2:]:g for n,g in list(globals().items()) if n.startswith('b_')}
DOM={'log':lambda a,b:a>0,'log2':lambda a,b:a>0,'log10':lambda a,b:a>0,'asin':lambda a,b:-1<=a and b<=1,'acos':lambda a,b:-1<=a and b<=1,
 'acosh':lambda a,b:a>=1,'atanh':lambda a,b:-1<a and b<1,'sqrt':lambda a,b:a>=0,'tan':lambda a,b:u_tan(a,b)!=(-math.inf,math.inf)}
NAI=('nai',)
def wrap1(n,g):
    def h(x):
        if isinstance(x,tuple) and x and x[0]=='d':
            _,iv,dc=x
            if dc==1000: return ('d',E_,1000)
            if iv==E_: return ('d',E_,1001)
            r=g(*iv)
            if n in DOM and not DOM[n](*iv): return ('d',r,1001)
            com=1004 if r!=E_ and not math.isinf(r[0]) and not math.isinf(r[1]) else 1003
            if r==E_: com=1001
            return ('d',r,min(dc,com))
        return E_ if x==E_ else g(*x)
    return h
def wrap2(n,g):
    def h(x,y):
        if isinstance(x,tuple) and x and x[0]=='d':
            _,iv,dc=x; _,jv,ec=y
            if dc==1000 or ec==1000: return ('d',E_,1000)
            if iv==E_ or jv==E_: return ('d',E_,1001)
            r=g(iv,jv)
            if r==E_: return ('d',r,1001)
            com=1004 if not math.isinf(r[0]) and not math.isinf(r[1]) else 1003
            if n=='pow':
                (a,b),(c,d)=iv,jv
                ok = a>0 or (a==0 and c>0)
                if not ok: return ('d',r,1001)
            if n=='atan2':
                (c,d),(a,b)=iv,jv
                if c<=0<=d and a<=0<=b: return ('d',r,1001)
                if a<0 and c<0<=d: com=1002
                elif a<0 and c==0: com=min(com,1003)   # continuous on the box, not in a neighbourhood
            return ('d',r,min(dc,ec,com))
        return E_ if x==E_ or y==E_ else g(x,y)
    return h
NS={'flt':flt,'REPF':lambda a,b:NS['REP'](flt(a),flt(b)),'stod':stod,'INF_D':math.inf,'MAX_D':sys.float_info.max,'MIN_D':sys.float_info.min,'DNORM_MIN_D':5e-324,'NaN_D':math.nan,'MAX_F':float.fromhex('0x1.fffffep127'),'INF_F':math.inf,
 'F_empty':lambda:E_,'F_entire':lambda:(-math.inf,math.inf),'F_nai':lambda:('d',E_,1000),'F_empty_dec':lambda:('d',E_,1001),'F_entire_dec':lambda:('d',(-math.inf,math.inf),1003),
 'REP':lambda a,b:(a,b) if a<=b and a<math.inf and b>-math.inf else E_ ,'REPD':lambda x,d:('d',x,d) if x!=E_ else ('d',E_,1000)}
NS['F_is_empty']=lambda x: x==E_ or (x[0]=='d' and x[1]==E_ and x[2]!=1000)
NS['F_is_nai']=lambda x: x==('d',E_,1000)
for n,g in U.items(): NS['F_'+n]=wrap1(n,g)
for n,g in B.items(): NS['F_'+n]=wrap2(n,g)
def main():
    F='/repo/test/p1788/flavor/infsup/setbased/test_mpfr_bin_ieee754_flavor_elem_func.cpp'
    src=open(F).read()
    src=re.sub(r'/\*.*?\*/','',src,flags=re.S); src=re.sub(r'//[^\n]*','',src)
    cnt={}; bad=[]; skip=[]
    names='|'.join(list(U)+list(B))
    for m in re.finditer(r'BOOST_CHECK(_EQUAL)?\s*\((.*?)\);',src,flags=re.S):
        t=m.group(2)
        k=re.search(r'F<double>::(%s)\('%names,t)
        if not k:
            continue
        line=src[:m.start()].count('\n')+1
        try:
            if m.group(1):
                l,r=eval('('+cpp(t)+')',NS)
                ok = (l[1:][1]==r[2] and same(l[1],r[1])) if (r!=E_ and r[0]=='d') else same(l,r)
                if not ok: bad.append((line,t.strip(),l,r))
            else:
                l=eval('('+cpp(t)+')',NS)
                if not l: bad.append((line,t.strip(),l,True))
        except Exception as e:
            skip.append((line,t.strip()[:150],repr(e)[:100])); continue
        cnt[k.group(1)]=cnt.get(k.group(1),0)+1
    print(cnt,sum(cnt.values())); print('skipped',len(skip)); 
    for s in skip[:15]: print(s)
    print('bad',len(bad))
    for b in bad[:60]: print(b)
if __name__=='__main__': main()
