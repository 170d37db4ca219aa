"""Writes MANIFEST.json and lean/Verif/Audit.lean from the table in tools/claims.json.

Every theorem named there must exist in lean/Verif; partial/refuted parts are explained in the notes.
"""
import json, re, glob, os
root = os.path.dirname(os.path.dirname(os.path.abspath(__file__)))
claims = json.load(open(root + "/tools/claims.json"))
names = set()
for f in glob.glob(root + "/lean/Verif/Props/*.lean"):
    for m in re.finditer(r"^theorem (\S+)", open(f).read(), re.M):
        names.add(m.group(1))
ids = [json.loads(l)["id"] for l in open(root + "/properties.jsonl")]
out, seen, missing = [], set(), []
for c in claims:
    for t in c["theorems"]:
        if t not in names:
            missing.append((c["property"], t))
        if t in seen:
            missing.append((c["property"], t + " listed twice"))
        seen.add(t)
    out.append({"property": c["property"], "status": c["status"],
                "theorems": ["Knx." + t for t in c["theorems"]], "note": c["note"]})
unlisted = sorted(n for n in names if re.match(r"c\d\d+_", n) and n not in seen)
print("missing:", missing)
print("unlisted property theorems:", unlisted)
print("properties without claim:", [i for i in ids if i not in {c["property"] for c in claims}])
json.dump({"claims": out}, open(root + "/MANIFEST.json", "w"), indent=1)
mods = sorted(os.path.basename(f)[:-5] for f in glob.glob(root + "/lean/Verif/Props/*.lean"))
with open(root + "/lean/Verif/Audit.lean", "w") as f:
    for m in mods:
        f.write("import Verif.Props.%s\n" % m)
    f.write("\n/-! # Axioms each property theorem depends on (printed by the build; written by tools/manifest.py) -/\n\n")
    for c in out:
        for t in c["theorems"]:
            f.write("#print axioms %s\n" % t)
