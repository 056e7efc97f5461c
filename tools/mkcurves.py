#!/usr/bin/env python3
"""Prints, for each curve, the triple u with (x^p - x) * u = 1 in F_p[x]/(x^3 - 3x - q)."""
D={256:(0xffffffff00000001000000000000000000000000ffffffffffffffffffffffff,0x5ac635d8aa3a93e7b3ebbd55769886bc651d06b0cc53b0f63bce3c3e27d2604b),
384:(0xfffffffffffffffffffffffffffffffffffffffffffffffffffffffffffffffeffffffff0000000000000000ffffffff,0xb3312fa7e23ee7e4988e056be3f82d19181d9c6efe8141120314088f5013875ac656398d8a2ed19d2a85c8edd3ec2aef),
521:(2**521-1,0x051953eb9618e1c9a1f929a21a0b68540eea2da725b99b315f3b8b489918ef109e156193951ec7e937b1652c0bd3bb1bf073573df883d2c34f1ef451fd46b503f00)}
for bits,(p,b) in D.items():
    q=p-b
    def mul(a,c):
        a0,a1,a2=a;b0,b1,b2=c
        t=a1*b2+a2*b1; w=a2*b2
        return ((a0*b0+q*t)%p,(a0*b1+a1*b0+3*t+q*w)%p,(a0*b2+a1*b1+a2*b0+3*w)%p)
    def pw(a,e):
        r=(1,0,0)
        while e:
            if e&1: r=mul(r,a)
            a=mul(a,a); e//=2
        return r
    h=pw((0,1,0),p); h=(h[0],(h[1]-1)%p,h[2])
    # solve h*u=1: columns h*1,h*x,h*x^2
    cols=[mul(h,e) for e in((1,0,0),(0,1,0),(0,0,1))]
    M=[[cols[j][i] for j in range(3)]+[1 if i==0 else 0] for i in range(3)]
    for i in range(3):
        piv=next(r for r in range(i,3) if M[r][i]%p)
        M[i],M[piv]=M[piv],M[i]
        iv=pow(M[i][i],-1,p)
        M[i]=[v*iv%p for v in M[i]]
        for r in range(3):
            if r!=i: M[r]=[(x-M[r][i]*y)%p for x,y in zip(M[r],M[i])]
    u=tuple(M[i][3] for i in range(3))
    assert mul(h,u)==(1,0,0)
    print(bits,[hex(x) for x in u])
