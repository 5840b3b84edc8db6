"""Append results of a mutation batch to seeded/LOG.jsonl: seedlog.py batch.json results.jsonl [tightened.json]."""
import json
import sys

batch = {m["id"]: m for m in json.load(open(sys.argv[1]))}
tight = json.load(open(sys.argv[3])) if len(sys.argv) > 3 else {}
with open("/verif/seeded/LOG.jsonl", "a") as f:
    for line in open(sys.argv[2]):
        r = json.loads(line)
        m = batch[r["id"]]
        f.write(json.dumps({
            "definition": m["file"] + ":" + m["definition"], "edit": m["edit"], "claim": m["claim"],
            "failed": r["failed"], "not_built": r.get("blocked", []),
            "survived": r["ok_build"], "tightened": tight.get(r["id"], [])}) + "\n")
