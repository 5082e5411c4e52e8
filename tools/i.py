"""The same comparison as t.py for the tests of the interval classes in test/p1788/infsup (float results are the double ones rounded outward)."""
import re,math,struct
import t
src=open('/repo/test/p1788/infsup/test_integration_mpfr_bin_ieee754_flavor_elem.cpp').read()
src=re.sub(r'//[^\n]*','',src)
names='|'.join(list(t.U)+list(t.B))
def DIc(a,b,d=None):
    r=t.NS['REP'](a,b)
    if r==t.E_: return ('d',t.E_,1000)
    if d is None: d=1004 if not math.isinf(a) and not math.isinf(b) else 1003
    return ('d',r,d)
NS=dict(t.NS); NS['DIc']=DIc
for n in list(t.U)+list(t.B): NS[n]=t.NS['F_'+n]
def down(a):
    f=t.flt(max(a,-t.NS['MAX_F'])) if a>-math.inf and a>=-t.NS['MAX_F'] else -math.inf
    if a>t.NS['MAX_F']: f=t.NS['MAX_F'] if a<math.inf else math.inf
    if f>a: f=nextf(f,False)
    return f
def nextf(f,up):
    i=struct.unpack('i',struct.pack('f',f))[0]
    i+= (1 if (f>0)==up else -1)
    return struct.unpack('f',struct.pack('i',i))[0]
def hull(r):
    if r==t.E_: return r
    return (down(r[0]),-down(-r[1]))
def toF(g):
    def h(*a):
        r=g(*a)
        if isinstance(r,tuple) and r[0]=='d':
            q=hull(r[1]); d=r[2]
            if q!=t.E_ and (math.isinf(q[0]) or math.isinf(q[1])): d=min(d,1003)
            return ('d',q,d)
        return hull(r)
    return h
NS['toF']=toF
NS['decoration']=lambda x:x[2]
n=0; bad=[]
for m in re.finditer(r'BOOST_CHECK(_EQUAL)?\s*\((.*?)\);',src,flags=re.S):
    s=m.group(2)
    if not re.search(r'\b(%s)\('%names,s): continue
    line=src[:m.start()].count('\n')+1
    e=re.sub(r'\bD?I<float>::(%s)\('%names,r'toF(\1)(',s)
    e=re.sub(r'\bD?I<double>::(%s)\('%names,r'\1(',e).replace('DI<float>(','DIc(').replace('I<float>(','REP(')
    e=e.replace('DI<double>(','DIc(').replace('I<double>(','REP(').replace('DI<double>::entire()','F_entire_dec()').replace('I<double>::entire()','F_entire()').replace('INF_F','INF_D')
    try: l,r=eval('('+t.cpp(e)+')',NS)
    except Exception as x: bad.append((line,s,repr(x))); continue
    if isinstance(l,tuple) and l[0]=='d': ok=t.same(l[1],r[1])       # operator== ignores the decoration
    elif isinstance(l,int): ok=l==r
    else: ok=t.same(l,r)
    n+=1
    if not ok: bad.append((line,s,l,r))
print(n,'compared'); print('bad',len(bad))
for b in bad: print(b)
