"""seeded/LOG.jsonl from the raw records of the mutation harness (last record of an edit wins)"""
import json,sys
src=sys.argv[1]
seen={}
for l in open(src):
    d=json.loads(l)
    seen[(d['definition'],d['edit'])]=d
with open('/verif/seeded/LOG.jsonl','w') as f:
    for d in seen.values():
        f.write(json.dumps({"definition":d["definition"],"file":d["file"],"edit":d["edit"],"claim":d["claim"],
          "theorems_failed":d["theorems_failed"],"claims_blocked":d["claims_blocked"],"killed":d["killed"],
          "theorems_tightened":d["theorems_tightened"],**({"note":d["note"]} if "note" in d else {})},ensure_ascii=False)+"\n")
print(len(seen))
