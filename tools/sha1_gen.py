"""Transcribes the unrolled rounds of /repo/src/hash/sha1.c and ripemd160.c into Lean data."""
import re
R={c:i for i,c in enumerate('abcde')}
src=open('/repo/src/hash/sha1.c').read().split('\n')
K=dict(k1='0x5A827999',k2='0x6ED9EBA1',k3='0x8F1BBCDC',k4='0xCA62C1D6')
out=[];first=last=None
for n,l in enumerate(src,1):
    m=re.fullmatch(r'  ROUND\((.), (.), (.), (.), (.), F(\d)\((.), (.), (.)\), (k\d), (.*)\);',l)
    if not m: continue
    first=first or n; last=n
    assert f'const static uint32_t {m[10]} = {K[m[10]]}ul;' in '\n'.join(src)
    regs=[R[m[i]] for i in range(1,6)]; fa=[R[m[i]] for i in range(7,10)]
    w=m[11]
    m1=re.fullmatch(r'w(\d+) = be32\(chunk, (\d+)\)',w)
    m2=re.fullmatch(r'(?:w(\d+) = )?left\(w(\d+) \^ w(\d+) \^ w(\d+) \^ w(\d+)\)',w)
    if m1: op=f'.load {m1[1]} {m1[2]}'
    else:
        assert m2,w
        d='none' if m2[1] is None else f'(some {m2[1]})'
        op=f'.mix {d} {m2[2]} {m2[3]} {m2[4]} {m2[5]}'
    out.append(f'  ⟨{regs}, .F{m[6]}, {fa}, {K[m[10]]}, {op}⟩')
assert len(out)==80
with open('/verif/lean/Verif/Model/Sha1Prog.lean','w') as f:
    f.write(f'''import Verif.Model.Basic
/-!
The unrolled rounds of `src/hash/sha1.c` as data.  Generated by `tools/sha1_gen.py` from the C text:
registers `a…e` are the numbers 0…4, `w0…w15` the numbers 0…15, `k1…k4` are replaced by their values
(sha1.c 27-30).  What an entry does is defined by the interpreter in `Verif.Model.Sha1`.
-/
namespace Sha1

/-- Name of the boolean-function macro. -/
inductive Fn where
  | F1 | F2 | F3
deriving DecidableEq, Repr

/-- The message argument of a round: `w_i = be32(chunk, off)`, or `left(w_p ^ w_q ^ w_r ^ w_s)`,
possibly assigned to a `w_i`. -/
inductive Op where
  | load (i off : Nat)
  | mix (dst : Option Nat) (p q r s : Nat)
deriving DecidableEq, Repr

/-- `ROUND(regs…, fn(args…), k, op)`. -/
structure Round where
  regs : List Nat
  fn : Fn
  args : List Nat
  k : Nat
  op : Op
deriving DecidableEq, Repr

/-- The rounds of `sha1_transform` (sha1.c {first}-{last}), in order. -/
def prog : List Round := [
''')
    f.write(',\n'.join(out)+']\n\nend Sha1\n')
src=open('/repo/src/hash/ripemd160.c').read().split('\n')
RR=[{c*2:i for i,c in enumerate('abcde')},{c*3:i for i,c in enumerate('abcde')}]
outs=[[],[]]; rng=[None,None]
for n,l in enumerate(src,1):
    m=re.fullmatch(r'  ([F-J])\1(\1)?\((\w+), (\w+), (\w+), (\w+), (\w+), X(\d+), (\d+)\);',l)
    if not m: continue
    p=1 if m[2] else 0
    regs=[RR[p][m[i]] for i in range(3,8)]
    outs[p].append(f'  ⟨.{m[1]*(2+p)}, {regs}, {m[8]}, {m[9]}⟩')
    rng[p]=(rng[p][0] if rng[p] else n, n)
assert [len(o) for o in outs]==[80,80]
assert rng[0][1]<rng[1][0]
with open('/verif/lean/Verif/Model/Ripemd160Prog.lean','w') as f:
    f.write(f'''import Verif.Model.Basic
/-!
The unrolled steps of `src/hash/ripemd160.c` as data.  Generated by `tools/sha1_gen.py` from the C
text: `aa…ee` and `aaa…eee` are the numbers 0…4 (of two separate register sets), `X0…X15` the numbers
0…15.  What an entry does is defined by the interpreter in `Verif.Model.Ripemd160`.
-/
namespace Ripemd160

/-- Name of the step macro (ripemd160.c 21-80). -/
inductive Mac where
  | FF | GG | HH | II | JJ | FFF | GGG | HHH | III | JJJ
deriving DecidableEq, Repr

/-- `MAC(regs…, X_x, s)`. -/
structure Step where
  mac : Mac
  regs : List Nat
  x : Nat
  s : Nat
deriving DecidableEq, Repr

/-- The left line (ripemd160.c {rng[0][0]}-{rng[0][1]}), in order. -/
def progL : List Step := [
''')
    f.write(',\n'.join(outs[0])+f']\n\n/-- The parallel line (ripemd160.c {rng[1][0]}-{rng[1][1]}), in order. -/\ndef progR : List Step := [\n'+',\n'.join(outs[1])+']\n\nend Ripemd160\n')
