"""Transcribes the unrolled rounds of /repo/src/hash/sha2.c into Lean data (Verif/Model/Sha2Prog.lean)."""
import re
src=open('/repo/src/hash/sha2.c').read()
lines=src.split('\n')
def find(pat,start=0):
    for i in range(start,len(lines)):
        if pat in lines[i]: return i
R={c:i for i,c in enumerate('abcdefgh')}
def term(t):
    t=t.strip()
    m=re.fullmatch(r'be(?:32|64)\((?:in|chunk), (\d+)\)',t)
    if m: return f'.be {m[1]}'
    m=re.fullmatch(r'sigma([01])(?:32|64)\(w(\d+)\)',t)
    if m: return f'.s{m[1]} {m[2]}'
    m=re.fullmatch(r'w(\d+)',t)
    if m: return f'.w {m[1]}'
    m=re.fullmatch(r'(0x[0-9a-f]+)u?l?l?',t)
    if m: return f'.c {m[1]}'
    raise Exception(t)
def terms(s): return '['+', '.join(term(t) for t in s.split(' + '))+']'
def wop(s):
    s=s.strip()
    m=re.fullmatch(r'w(\d+) = (.*)',s)
    if m: return f'.assign {m[1]} {terms(m[2])}'
    m=re.fullmatch(r'w(\d+) \+= (.*)',s)
    if m: return f'.plus {m[1]} {terms(m[2])}'
    return f'.use {terms(s)}'
def rounds(lo,hi,kind):
    text=re.sub(r'\s+',' ',' '.join(lines[lo:hi]))
    out=[]
    for stmt in text.split(';'):
        stmt=stmt.strip()
        i=stmt.find('ROUND')
        if i<0: continue
        stmt=stmt[i:]
        m=re.fullmatch(r'ROUND(32|64)\((.), (.), (.), (.), (.), (.), (.), (.), (.*)\)',stmt)
        assert m,stmt
        regs=[R[m[i]] for i in range(2,10)]
        rest=m[10]
        if kind==64:
            k,w=rest.split(', ',1)
            op=wop(w)
        else:
            m2=re.fullmatch(r'(0x[0-9a-f]+)(?:ul)?(?: \+ (.*))?',rest)
            assert m2,rest
            k=m2[1]; w=m2[2]
            if w is None: op='.none'
            else:
                if w.startswith('(') and w.endswith(')') : w=w[1:-1]
                op=wop(w)
        k=re.sub(r'u?l+$','',k)
        out.append((regs,k,op))
    return out
def emit(f,name,lo,hi,kind,doc):
    rs=rounds(lo,hi,kind)
    f.write(f'/-- {doc} (sha2.c {lo+1}-{hi}), one entry per round macro, in order. -/\n')
    f.write(f'def {name} : List Round := [\n')
    f.write(',\n'.join(f'  ⟨{r}, {k}, {op}⟩' for r,k,op in rs))
    f.write(']\n\n')
    print(name,len(rs),lo+1,hi)
t1=find('// Transform 1'); t2=find('// Transform 2'); t3=find('// Transform 3')
s256=find('static void sha256_transform'); s512=find('static void sha512_transform'); fin=find('static void sha256_final')
with open('/verif/lean/Verif/Model/Sha2Prog.lean','w') as f:
    f.write('''import Verif.Model.Basic
/-!
The unrolled rounds of `src/hash/sha2.c` as data.  Generated by `tools/sha2_gen.py` from the C text:
registers `a…h` are the numbers 0…7, `w0…w15` the numbers 0…15.  What an entry does is defined by
the interpreter in `Verif.Model.Sha2`.
-/
namespace Sha2

/-- A summand of a message-schedule expression: `be32(chunk, off)` / `be64`, `w_i`, `sigma0(w_i)`,
`sigma1(w_i)`, a constant. -/
inductive Term where
  | be (off : Nat)
  | w (i : Nat)
  | s0 (i : Nat)
  | s1 (i : Nat)
  | c (v : Nat)
deriving DecidableEq, Repr

/-- The message part of a round: nothing (the schedule word is folded into the constant), a sum that
is used only, `w_i = sum`, `w_i += sum`. -/
inductive WOp where
  | none
  | use (ts : List Term)
  | assign (i : Nat) (ts : List Term)
  | plus (i : Nat) (ts : List Term)
deriving DecidableEq, Repr

/-- `ROUND32(regs…, k + op)` or `ROUND64(regs…, k, op)`. -/
structure Round where
  regs : List Nat
  k : Nat
  op : WOp
deriving DecidableEq, Repr

''')
    emit(f,'d64Prog1',t1,t2,32,'"Transform 1" of `_hash256_d64_transform`')
    emit(f,'d64Prog2',t2,t3,32,'"Transform 2" of `_hash256_d64_transform`')
    emit(f,'d64Prog3',t3,s256,32,'"Transform 3" of `_hash256_d64_transform`')
    emit(f,'sha256Prog',s256,s512,32,'`sha256_transform`')
    emit(f,'sha512Prog',s512,fin,64,'`sha512_transform`')
    f.write('end Sha2\n')
