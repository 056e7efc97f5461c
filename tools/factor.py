import random, math, sys, json
def isprime(n):
    if n<2: return False
    for p in (2,3,5,7,11,13,17,19,23,29,31,37,41,43,47):
        if n%p==0: return n==p
    d=n-1;s=0
    while d%2==0: d//=2;s+=1
    for a in (2,3,5,7,11,13,17,19,23,29,31,37,41,43,47):
        x=pow(a,d,n)
        if x in (1,n-1): continue
        for _ in range(s-1):
            x=x*x%n
            if x==n-1: break
        else: return False
    return True
def primes(B):
    s=bytearray([1])*(B+1); s[0:2]=b'\0\0'
    for i in range(2,int(B**.5)+1):
        if s[i]: s[i*i::i]=bytes(len(s[i*i::i]))
    return [i for i in range(B+1) if s[i]]
def ecm(n,B1,curves):
    PR=primes(B1); B2=B1*40
    PR2=[p for p in primes(B2) if p>B1]
    for c in range(curves):
        sigma=random.randrange(6,2**60)
        u=(sigma*sigma-5)%n; v=4*sigma%n
        x=pow(u,3,n); z=pow(v,3,n)
        t=4*x*v%n
        g=math.gcd(t,n)
        if g not in(1,n): return g
        try: it=pow(t,-1,n)
        except ValueError: continue
        a24=((pow(v-u,3,n)*(3*u+v)*it-2)+2)*pow(4,-1,n)%n
        def dbl(P):
            X,Z=P; s=(X+Z)**2%n; d=(X-Z)**2%n; t=s-d
            return s*d%n, t*(d+a24*t)%n
        def add(P,Q,D):
            a=(P[0]-P[1])*(Q[0]+Q[1]); b=(P[0]+P[1])*(Q[0]-Q[1])
            return D[1]*((a+b)**2%n)%n, D[0]*((a-b)**2%n)%n
        def lad(k,P):
            if k==1: return P
            R0,R1=P,dbl(P)
            for b in bin(k)[3:]:
                if b=='1': R0,R1=add(R0,R1,P),dbl(R1)
                else: R1,R0=add(R0,R1,P),dbl(R0)
            return R0
        P=(x,z)
        k=1
        for p in PR:
            q=p
            while q*p<=B1: q*=p
            k*=q
            if k.bit_length()>2000: P=lad(k,P); k=1
        P=lad(k,P)
        g=math.gcd(P[1],n)
        if g not in (1,n): return g
        if g==n: continue
        # stage 2 simple with baby-step giant-step D=210
        D=210
        js=[j for j in range(1,D//2+1) if math.gcd(j,D)==1]
        # compute jP for all
        S={1:P,2:dbl(P)}
        S[3]=add(S[2],P,P)
        for j in range(4,D//2+1): S[j]=add(S[j-1],P,S[j-2])
        bj={j:S[j][0]*S[j][1] for j in js}
        G=lad(D,P)
        m=PR2[0]//D
        T0=lad(m-1,G) if m>1 else None; T1=lad(m,G)
        if m<=1: continue
        acc=1;idx=0;L=len(PR2)
        while idx<L:
            lo=m*D-D//2; hi=m*D+D//2
            while idx<L and PR2[idx]<=hi:
                j=abs(PR2[idx]-m*D)
                if j in bj:
                    q=S[j]
                    acc=acc*((T1[0]-q[0])*(T1[1]+q[1])-T1[0]*T1[1]+bj[j])%n
                idx+=1
            T0,T1=T1,add(T1,G,T0); m+=1
        g=math.gcd(acc,n)
        if g not in (1,n): return g
    return None
def factor(n,maxc=None,log=True):
    out=[];st=[n]
    for p in primes(200000):
        while st[0]%p==0: out.append(p); st[0]//=p
    if st[0]==1: return out,[]
    rest=[]
    while st:
        m=st.pop()
        if m==1: continue
        if isprime(m): out.append(m); continue
        g=None
        for B1,c in ((2000,25),(11000,90),(50000,200),(250000,500)):
            g=ecm(m,B1,c)
            if g: break
        if g is None: rest.append(m); print("unfactored",m,file=sys.stderr); continue
        if log: print("found",g,file=sys.stderr)
        st+= [g,m//g]
    return sorted(out),rest
if __name__=="__main__":
    for a in sys.argv[1:]:
        print(a, factor(eval(a)))
