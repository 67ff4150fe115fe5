"""Append finished mutants from the logs of mutate.py to seeded/LOG.jsonl (one line per mutant)."""
import json, pathlib, sys

root = pathlib.Path(__file__).resolve().parent.parent
log = root / "seeded" / "LOG.jsonl"
log.parent.mkdir(exist_ok=True)
tight_file = root / "seeded" / "tightened.json"
tight = json.loads(tight_file.read_text()) if tight_file.exists() else {}
seen = {}
if log.exists():
    for line in log.read_text().splitlines():
        d = json.loads(line)
        seen[d["id"]] = d
for src in sys.argv[1:]:
    for line in open(src):
        d = json.loads(line)
        if "error" in d and "theorems_failed" not in d:
            continue
        seen[d["id"]] = {
            "id": d["id"], "definition": d["definition"], "file": d["file"], "edit": d["edit"],
            "claim": d["claim"], "claims_broken": d.get("breaks", []),
            "theorems_failed": d.get("theorems_failed", []), "lemmas_failed": d.get("lemmas_failed", []),
            "theorems_tightened": tight.get(d["id"], d.get("tightened", []))}
log.write_text("".join(json.dumps(seen[k]) + "\n" for k in sorted(seen)))
print(len(seen))
