# Floating-point copy of the branch and bound of Verif/Lemmas/Interval.lean, used to plan how to split boxes (nothing here is trusted).
import math
class D:
    __slots__=('l','h','g')
    def __init__(s,l,h,g): s.l=l;s.h=h;s.g=g
def imul(a,b):
    p=(a[0]*b[0],a[0]*b[1],a[1]*b[0],a[1]*b[1]); return (min(p),max(p))
def add(x,y): return D(x.l+y.l,x.h+y.h,[(a[0]+b[0],a[1]+b[1]) for a,b in zip(x.g,y.g)])
def neg(x): return D(-x.h,-x.l,[(-b,-a) for a,b in x.g])
def scl(c,x):
    f=lambda p:(c*p[0],c*p[1]) if c>=0 else (c*p[1],c*p[0])
    v=f((x.l,x.h)); return D(v[0],v[1],[f(p) for p in x.g])
def cst(x,c): return D(x.l+c,x.h+c,x.g)
def mul(x,y):
    v=imul((x.l,x.h),(y.l,y.h)); 
    g=[]
    for a,b in zip(x.g,y.g):
        p=imul(a,(y.l,y.h)); q=imul(b,(x.l,x.h)); g.append((p[0]+q[0],p[1]+q[1]))
    return D(v[0],v[1],g)
def sq(x):
    l,h=x.l,x.h
    if l>=0: v=(l*l,h*h)
    elif h<=0: v=(h*h,l*l)
    else: v=(0,max(l*l,h*h))
    return D(v[0],v[1],[imul((2*l,2*h),a) for a in x.g])
def pcs(x):
    c=(x.l+x.h)/2;r=(x.h-x.l)/2
    s=(max(-1,math.sin(c)-r),min(1,math.sin(c)+r)); k=(max(-1,math.cos(c)-r),min(1,math.cos(c)+r))
    return s,k
def sin(x):
    s,k=pcs(x); return D(s[0],s[1],[imul(k,a) for a in x.g])
def cos(x):
    s,k=pcs(x); return D(k[0],k[1],[imul((-s[1],-s[0]),a) for a in x.g])
def exp(x):
    v=(math.exp(x.l),math.exp(x.h)); return D(v[0],v[1],[imul(v,a) for a in x.g])
def var(box):
    n=len(box); return [D(box[i][0],box[i][1],[(1,1) if j==i else (0,0) for j in range(n)]) for i in range(n)]
def run(F,box,m,cons=None,maxn=200000):
    stack=[(box,0)]; n=0; leaves=0; maxd=0
    while stack:
        b,dep=stack.pop(); n+=1; maxd=max(maxd,dep)
        if n>maxn: return ('too many',n,b)
        xs=var(b)
        if cons is not None and cons(*xs).l>0: leaves+=1; continue
        r=F(*xs)
        if r.l>=m: leaves+=1; continue
        c=[((l+h)/2,)*2 for l,h in b]
        fc=F(*var(c)).l
        w=[max(abs(g[0]),abs(g[1]))*(h-l)/2 for g,(l,h) in zip(r.g,b)]
        if fc-sum(w)>=m: leaves+=1; continue
        j=max(range(len(b)),key=lambda i:w[i])
        l,h=b[j]; mid=(l+h)/2
        for p in ((l,mid),(mid,h)):
            bb=list(b); bb[j]=p; stack.append((bb,dep+1))
    return (n,leaves,maxd)
def sasena(x,y):
    return cst(add(add(scl(.01,sq(add(y,neg(sq(x))))),add(sq(cst(neg(x),1)),scl(2,sq(cst(neg(y),2))))),scl(7,mul(sin(scl(.5,x)),sin(scl(.7,mul(x,y)))))),2)
def branin(x0,x1):
    a=cst(scl(15,x0),-5); b=scl(15,x1)
    q=cst(add(add(b,scl(-5.1/(4*math.pi**2),sq(a))),scl(5/math.pi,a)),-6)
    return cst(add(add(sq(q),scl(10*(1-1/(8*math.pi)),cos(a))),scl(5,x0)),10)
def b1c(x0,x1): return cst(neg(mul(x0,x1)),.2)
def b2c(x0,x1):
    u=cst(scl(2,x0),-1); v=cst(scl(2,x1),-1)
    t1=mul(cst(add(scl(-2.1,sq(u)),scl(1/3,sq(sq(u)))),4),sq(u)); t3=mul(cst(scl(4,sq(v)),-4),sq(v))
    s=add(add(add(t1,mul(u,v)),t3),add(scl(3,sin(cst(scl(-6,u),6))),scl(3,sin(cst(scl(-6,v),6)))))
    return cst(neg(s),6)
def lag2(x, y): return add(branin(x, y), scl(4, b2c(x, y)))
def forr(x): return mul(sq(cst(scl(6,x),-2)),sin(cst(scl(12,x),-4)))
def six3(x, y):
    return add(add(mul(cst(add(scl(-6.3, sq(x)), sq(sq(x))), 12), sq(x)), scl(3, mul(x, y))), mul(cst(scl(12, sq(y)), -12), sq(y)))


def hart(A, P, C):
    A, P, C = [[float(v) for v in r] for r in A], [[float(v) for v in r] for r in P], [float(v) for v in C]

    def f(*x):
        r = None
        for i in range(len(C)):
            q = None
            for j in range(len(x)):
                t = scl(-A[i][j], sq(cst(x[j], -P[i][j])))
                q = t if q is None else add(q, t)
            e = scl(-C[i], exp(q))
            r = e if r is None else add(r, e)
        return r
    return f


def div(x, y):
    inv = (1 / y.h, 1 / y.l)
    v = imul((x.l, x.h), inv)
    g = []
    for a, b in zip(x.g, y.g):
        q = imul(v, b)
        g.append(imul((a[0] - q[1], a[1] - q[0]), inv))
    return D(v[0], v[1], g)


def hart6(A, P, C, k):
    A, P, C = [[float(v) for v in r] for r in A[:3]], [[float(v) for v in r] for r in P[:3]], [float(v) for v in C[:3]]
    h = hart(A, P, C)

    def f(*z):
        z = list(z)
        z.insert(k, D(1, 1, [(0, 0)] * 2))
        X = []
        for j in range(6):
            num = den = None
            for i in range(3):
                a = scl(A[i][j] * P[i][j], z[i])
                b = scl(A[i][j], z[i])
                num = a if num is None else add(num, a)
                den = b if den is None else add(den, b)
            X.append(div(num, den))
        return h(*X)
    return f


def count(fn, box, limit):
    """The number of boxes the check visits, None if more than `limit`."""
    r = run(fn[0], box, fn[1], fn[2] if len(fn) > 2 else None, limit)
    return None if r[0] == 'too many' else r[0]


def worst(fn, box):
    r = fn[0](*var(box))
    return [max(abs(g[0]), abs(g[1])) * (h - l) / 2 for g, (l, h) in zip(r.g, box)]
