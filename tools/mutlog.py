"""Appends results of a mutation batch to seeded/LOG.jsonl: mutlog.py results.jsonl [definition:edit=tightened theorems]..."""
import json,sys
tight=dict(x.split('=',1) for x in sys.argv[2:])
out=open('/verif/seeded/LOG.jsonl','a')
for l in open(sys.argv[1]):
    r=json.loads(l)
    k=r['definition']+':'+r['edit']
    out.write(json.dumps({"definition":r['definition'],"file":"lean/Verif/"+r['file'],"edit":r['edit'],"claim_broken":r['claim'],
      "theorems_failed":r['failed'] , "survived":r['ok'],"theorems_tightened":tight.get(k,"").split()})+"\n")
