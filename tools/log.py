#!/usr/bin/env python3
"""log.py RESULTS.jsonl: appends one line to seeded/LOG.jsonl for every result of mutate.py not logged yet.

A line has the definition edited, the edit, the claim it breaks, the theorems that failed and the theorems that were
tightened (filled in by hand later).  Prints the mutants that no theorem of the broken properties noticed."""
import json, os, sys

root = os.path.join(os.path.dirname(os.path.abspath(__file__)), "..")
mutants = {m["id"]: m for m in map(json.loads, open(os.path.join(root, "seeded", "mutants.jsonl")))}
log = os.path.join(root, "seeded", "LOG.jsonl")
done = {json.loads(l)["id"] for l in open(log)} if os.path.exists(log) else set()
with open(log, "a") as out:
    for r in map(json.loads, open(sys.argv[1])):
        m = mutants[r["id"]]
        if r["status"] != "ok":
            print(r["id"], r["status"])
            continue
        hit = [t for t in r["failed"] if t.split("_")[0].upper() in m["breaks"]]
        if not hit:
            print(r["id"], "unnoticed", m["definition"], m["breaks"], "failed:", r["failed"][:6])
        if r["id"] in done:
            continue
        done.add(r["id"])
        out.write(json.dumps({
            "id": r["id"], "definition": f"Knx {m['file']}.{m['definition']}",
            "edit": f"{m['old']}  →  {m['new']}", "claim": f"{', '.join(m['breaks'])}: {m['claim']}",
            "failed": r["failed"], "tightened": []}, ensure_ascii=False) + "\n")
