#!/usr/bin/env python3
"""Generates lean/Verif/Lemmas/Secp256k1Primes.lean: Pratt certificates for the two primes of secp256k1."""
KNOWN = {
 2**256-2**32-977: [2,3,7,13441,205115282021455665897114700593932402728804164701536103180137503955397371],
 205115282021455665897114700593932402728804164701536103180137503955397371:
   [2,3,5,29,29,31,7723,132896956044521568488119,255515944373312847190720520512484175977],
 0xFFFFFFFFFFFFFFFFFFFFFFFFFFFFFFFEBAAEDCE6AF48A03BBFD25E8CD0364141:
   [2]*6+[3,149,631,107361793816595537,174723607534414371449,341948486974166000522343609283189],
}
import random
from math import gcd, prod
def isp(m):
    if m<2: return False
    for a in (2,3,5,7,11,13,17,19,23,29,31,37,41,43):
        if m%a==0: return m==a
    for a in (2,3,5,7,11,13,17,19,23,29,31,37,41,43):
        d=m-1;s=0
        while d%2==0:d//=2;s+=1
        x=pow(a,d,m)
        if x in(1,m-1): continue
        for _ in range(s-1):
            x=x*x%m
            if x==m-1:break
        else:return False
    return True
random.seed(1)
def rho(m):
    while True:
        c=random.randrange(1,m);y=x=random.randrange(m);g=1
        while g==1:
            q=1
            for _ in range(200):
                x=(x*x+c)%m;y=(y*y+c)%m;y=(y*y+c)%m;q=q*abs(x-y)%m
            g=gcd(q,m)
        if g!=m:return g
def fac(m):
    if m==1:return []
    if isp(m):return [m]
    for a in range(2,30000):
        if m%a==0:return [a]+fac(m//a)
    g=rho(m); return sorted(fac(g)+fac(m//g))
done=[]
def cert(m):
    if m<400 or m in [d[0] for d in done]: return
    fs=KNOWN.get(m) or fac(m-1)
    assert prod(fs)==m-1, m
    for q in sorted(set(fs)): cert(q)
    a=2
    while pow(a,m-1,m)!=1 or any(pow(a,(m-1)//q,m)==1 for q in fs): a+=1
    done.append((m,a,fs))
for m in list(KNOWN): cert(m)
print("import Verif.Lemmas.Pratt\n/-! Generated by tools/pratt.py. -/\nnamespace Secp256k1\n")
for m,a,fs in done:
    print(f"theorem prime_{m} : Nat.Prime {m} := by\n  refine pratt {m} {a} {fs} ?_ (by decide +kernel) (by decide +kernel) (by decide +kernel) (by decide +kernel)")
    print("  intro q hq\n  simp only [List.mem_cons, List.not_mem_nil, or_false] at hq")
    u=[]
    for q in fs: 
        u.append(q)
    print("  rcases hq with "+" | ".join(["rfl"]*len(fs)))
    for q in fs:
        print("  · "+(f"exact prime_{q}" if q>=400 else "norm_num"))
print("\nend Secp256k1")
