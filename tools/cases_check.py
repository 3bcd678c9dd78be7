#!/usr/bin/env python3
"""Every theorem of a property that has hypotheses is applied to concrete arguments somewhere in lean/Verif/Cases.

Lists the theorems named C.._ in lean/Verif/Props that have a proof among their arguments (asked of Lean itself) and reports those that no
line of lean/Verif/Cases mentions.  Run after `lake build`, in /verif:  python3 tools/cases_check.py
"""
import os, re, subprocess, sys, tempfile, glob
root = os.path.dirname(os.path.dirname(os.path.abspath(__file__)))
LEAN = '''import Lean
import Verif
open Lean Meta
def go : MetaM Unit := do
  let env ← getEnv
  for (c, ci) in env.constants.map₁.toList do
    match env.getModuleIdxFor? c with
    | some i =>
      let m := env.header.moduleNames[i.toNat]!
      if (`Verif.Props).isPrefixOf m && (c.getString!.startsWith "C") && (c.getString!.toList.drop 1).head?.any Char.isDigit then
        let n ← forallTelescope ci.type fun xs _ => do
          let mut k := 0
          for x in xs do
            if ← isProp (← inferType x) then k := k + 1
          return k
        IO.println s!"{m} {c} {n}"
    | none => pure ()
#eval go
'''
with tempfile.NamedTemporaryFile('w', suffix='.lean', delete=False) as f:
    f.write(LEAN)
out = subprocess.run(['lake', 'env', 'lean', f.name], cwd=root + '/lean', capture_output=True, text=True).stdout
os.unlink(f.name)
cases = ' '.join(open(p).read() for p in glob.glob(root + '/lean/Verif/Cases/*.lean'))
used = set(re.findall(r'\bC\d+_\w+', cases))
total = missing = 0
for line in sorted(out.split('\n')):
    part = line.split()
    if len(part) == 3 and part[2] != '0':
        total += 1
        if part[1].split('.')[-1] not in used:
            missing += 1
            print('not applied:', part[1], 'of', part[0])
print(total, 'theorems with hypotheses,', missing, 'not applied in Verif/Cases')
sys.exit(missing > 0 or total == 0)
