#!/usr/bin/env python3
"""Writes lean/Verif/Proofs/Primes.lean: Pocklington certificates for the NIST domain primes.
The factorizations are only search results; every certificate is checked by the Lean kernel."""
import sys, os, math
sys.path.insert(0, os.path.dirname(__file__))
from factor import isprime, factor
ROOT = {
 "p256":0xffffffff00000001000000000000000000000000ffffffffffffffffffffffff,
 "n256":0xffffffff00000000ffffffffffffffffbce6faada7179e84f3b9cac2fc632551,
 "p384":0xfffffffffffffffffffffffffffffffffffffffffffffffffffffffffffffffeffffffff0000000000000000ffffffff,
 "n384":0xffffffffffffffffffffffffffffffffffffffffffffffffc7634d81f4372ddf581a0db248b0a77aecec196accc52973,
 "p521":2**521-1,
 "n521":0x1fffffffffffffffffffffffffffffffffffffffffffffffffffffffffffffffffa51868783bf2f966b7fcc0148f709a5d03bb5c9b8899c47aebb6fb71e91386409,
}
HINT = [835945042244614951780389953367877943453916927241,187019741,622491383,1002328039319,2624747550333869278416773953,
 1124679999981664229965379347,3055465788140352002733946906144561090641249606160407884365391979704929268480326390471,1458105463,
 1647781915921980690468599,3615194794881930010216942559103847593050265703173292383701371712350878926821661243755933835426896058418509759880171943,
 2310681601024493373794291096661633728450413044153218454883666051457297936169644163988915577,
 3636410625392624440351547907325502812950802686368714273274221490761556277859337865760708490235892541081304511,
 807145746439,19173790298027098165721053155794528970226934547887232785722672956982046098136719667167519737147526097]
done = {}; lines = []
def fact(m):
    fs=[]
    for h in HINT:
        while m%h==0: fs.append(h); m//=h
    if m>1:
        f,r=factor(m); fs+=f
        print("rest",r,file=sys.stderr)
    return sorted(fs)
def fact521(m): # 2(2^520-1), algebraic
    fs=[2]
    m=2**520-1
    pieces=[]
    rest=m
    for d in sorted(x for x in range(1,520) if 520%x==0):
        g=math.gcd(rest,2**d-1)
        while g>1:
            pieces.append(g); rest//=g; g=math.gcd(rest,g)
    pieces.append(rest)
    for x in pieces: fs+=fact(x)
    return sorted(fs)
# primes proved from a large prime factor of N+1 (Morrison's test)
LUCAS = {3636410625392624440351547907325502812950802686368714273274221490761556277859337865760708490235892541081304511:
 51804625509771251553534546678595322522265033968214829542043448183730599}
def mulq(D,m,a,b): return ((a[0]*b[0]+D*a[1]*b[1])%m,(a[0]*b[1]+a[1]*b[0])%m)
def powq(D,m,a,e):
    r=(1,0)
    while e:
        if e&1: r=mulq(D,m,r,a)
        a=mulq(D,m,a,a); e>>=1
    return r
def prove_lucas(N,nm):
    r=LUCAS[N]; k=(N+1)//r
    assert (N+1)%r==0 and (r-1)**2>N
    D=2
    while pow(D,(N-1)//2,N)!=N-1: D+=1
    c=1
    while True: # norm one: (c+s)/(c-s), s^2=D
        i=pow(c*c-D,-1,N); a,b=(c*c+D)*i%N,2*c*i%N
        w=powq(D,N,(a,b),k)
        if powq(D,N,(a,b),N+1)==(1,0) and math.gcd((w[0]-1)**2-D*w[1]**2,N)==1: break
        c+=1
    s=prove(r)
    done[N]=nm
    lines.append(f"theorem {nm} : Nat.Prime {N} := by\n"
      f"  exact lucas_prime _ {r} {k} {D} {a} {b} (by decide +kernel) {s} (by decide +kernel) (by decide +kernel) (by decide +kernel) (by decide +kernel) (by decide +kernel)\n")
    return nm
def prove(N):
    if N in done: return done[N]
    name=next((k for k,v in ROOT.items() if v==N),None)
    nm="prime_"+name if name else "prime_%s"%(hex(N)[2:14] if N>10**12 else N)
    if nm in done.values(): nm+="_%d"%len(done)
    if N<10**7:
        done[N]=nm
        lines.append(f"theorem {nm} : Nat.Prime {N} := by norm_num\n"); return nm
    if N in LUCAS: return prove_lucas(N,nm)
    fs=fact521(N-1) if N==2**521-1 else fact(N-1)
    print(N,fs,file=sys.stderr)
    A=1;use=[]
    for q in sorted(set(fs),reverse=True):
        e=fs.count(q)
        A*=q**e; use.append((q,e))
        if (A+1)**2>N: break
    else: raise Exception("not enough")
    a=2
    while not (pow(a,N-1,N)==1 and all(math.gcd(pow(a,(N-1)//q,N)-1,N)==1 for q,_ in use)): a+=1
    subs=[prove(q) for q,_ in use]
    done[N]=nm
    prod=" * ".join(f"{q} ^ {e}" for q,e in use)
    k=len(use)
    body=f"theorem {nm} : Nat.Prime {N} := by\n"
    body+=f"  refine pocklington _ {a} ({prod}) (by decide +kernel) (by decide +kernel) (by decide +kernel) (by decide +kernel) ?_\n"
    body+="  intro q hq hd\n"
    for i in range(k-1,0,-1):
        q,e=use[i]
        body+="  rcases (Nat.Prime.dvd_mul hq).mp hd with hd | hd\n  swap\n"
        body+=f"  · obtain rfl := (Nat.prime_dvd_prime_iff_eq hq {subs[i]}).mp (hq.dvd_of_dvd_pow hd)\n    decide +kernel\n"
    body+=f"  obtain rfl := (Nat.prime_dvd_prime_iff_eq hq {subs[0]}).mp (hq.dvd_of_dvd_pow hd)\n  decide +kernel\n"
    lines.append(body); return nm
for k,v in ROOT.items(): prove(v)
out=os.path.join(os.path.dirname(__file__),"../lean/Verif/Proofs/Primes.lean")
open(out,"w").write('''import Verif.Proofs.Lucas
/-
Primality of the domain parameters of `/repo/src/jwkest/curves.py:33-57`.
Generated by `tools/mkprimes.py`; each certificate is checked by the kernel.
-/

namespace Verif

'''+"\n".join(lines)+"\nend Verif\n")
