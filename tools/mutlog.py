import json,sys
# usage: log.py MUTANTS.json : convert outcomes to log lines
muts={m["name"]:m for m in json.load(open(sys.argv[1]))}
out={}
for l in open("/tmp/mut/out.jsonl"):
    r=json.loads(l); out[r["name"]]=r
tight=json.load(open(sys.argv[2])) if len(sys.argv)>2 else {}
n=0
with open("/verif/seeded/LOG.jsonl","a") as f:
    for k,m in muts.items():
        if k not in out: continue
        r=out[k]
        failed=[x.replace("Osu.","",1) for x in r["direct"]]
        f.write(json.dumps({"definition":m["definition"],"edit":m["edit"],"claim_broken":m["claim"],
          "theorems_failed":failed,"property_theorems_failed":r["props"],"examples_failed":r["examples"],"theorems_tightened":tight.get(k,[])})+"\n"); n+=1
print(n)
