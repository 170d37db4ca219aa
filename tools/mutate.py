"""Applies wrong edits to a scratch copy of the model and reports which property theorems stop proving.

usage: mutate.py BASE WORKDIR MUTANTS.jsonl RESULTS.jsonl [id ...]

BASE is a built copy of /verif/lean. Each mutant is {"id", "file", "old", "new", "definition", "claim", "breaks"}: in Verif/Model/<file>.lean the text `old`
(which must occur once) becomes `new`. The modules with the theorems of the claims in `breaks` are built; every declaration
with an error gets the proof `sorry`, and so on until they build. The theorems that then depend on `sorryAx` are the ones
that failed. Without `breaks` all modules are built.
"""
import glob, json, os, re, subprocess, sys, time
src, work, mutants, results = sys.argv[1:5]
only = sys.argv[5:]
DECL = re.compile(r"^(@\[[^\]]*\] *)?(private |protected |noncomputable )*(theorem|lemma|example|instance|def|abbrev|structure|inductive)\b")
claims = {c["property"]: c["theorems"] for c in json.load(open(os.path.join(os.path.dirname(os.path.abspath(__file__)), "claims.json")))}
home, inside = {}, {}
for f in glob.glob(src + "/Verif/**/*.lean", recursive=True):
    mod = f[len(src) + 1:-5].replace("/", ".")
    inside[mod] = re.findall(r"^theorem (c\d+\w*)", open(f).read(), re.M)
    for n in inside[mod]:
        home[n] = mod
imports = {"Verif." + m[len(src) + 7:-5].replace("/", "."): re.findall(r"^import (Verif\.\S+)", open(m).read(), re.M)
           for m in glob.glob(src + "/Verif/**/*.lean", recursive=True)}

def cone(mods):
    seen, todo = set(), list(mods)
    while todo:
        m = todo.pop()
        if m not in seen:
            seen.add(m)
            todo += imports.get(m, [])
    return seen

def decl_of(lines, n):
    """start and end (exclusive) of the declaration around line n (0-based)"""
    a = n
    while a > 0 and not DECL.match(lines[a]):
        a -= 1
    b = n + 1
    while b < len(lines) and not (DECL.match(lines[b]) or re.match(r"^(/--|/-!|end |namespace |open |section|variable|set_option|#)", lines[b])):
        b += 1
    return a, b

def sorried(text):
    depth, i = 0, 0
    while i < len(text):
        c = text[i]
        lit = re.match(r"'(\\.|[^\\'])'|\"(\\.|[^\\\"])*\"", text[i:])
        if lit:
            i += lit.end()
            continue
        if c in "([{⟨":
            depth += 1
        elif c in ")]}⟩":
            depth -= 1
        elif depth == 0 and text.startswith(":=", i) and not re.search(r"\b(let|have)\s+[^\s:]+(\s*:[^;\n]*)?\s*$", text[:i]):
            return text[:i] + ":= sorry\n\n"
        elif depth == 0 and re.match(r"\swhere\b", text[i:i + 7]):
            return text[:i] + " := sorry\n\n"
        elif depth == 0 and text.startswith("\n  | ", i):
            return text[:i] + " := sorry\n\n"
        i += 1
    return None

def build(mods):
    p = subprocess.run(["nice", "-n", "5", "lake", "build"] + mods, cwd=work, capture_output=True, text=True)
    return p.returncode, p.stdout + p.stderr

def run(m):
    breaks = m.get("breaks") or []
    if isinstance(breaks, str):
        breaks = [b.strip() for b in breaks.split(",")]
    wanted = [t for b in breaks for t in claims.get(b, [])]
    mods = sorted({home[t] for t in wanted if t in home}) or sorted(home[t] for t in home)
    subprocess.run(["rsync", "-a", "--delete", src + "/", work + "/"], check=True) if os.path.exists("/usr/bin/rsync") else (
        subprocess.run(["rm", "-rf", work], check=True), subprocess.run(["cp", "-a", src, work], check=True))
    path = "%s/Verif/Model/%s.lean" % (work, m["file"])
    t = open(path).read()
    assert t.count(m["old"]) == 1, (m["id"], t.count(m["old"]))
    open(path, "w").write(t.replace(m["old"], m["new"]))
    hit, rounds, t0 = set(), 0, time.time()
    while True:
        rounds += 1
        rc, out = build(mods)
        if rc == 0:
            break
        errs = {}
        for f, l in re.findall(r"error: (Verif/\S+\.lean):(\d+):\d+", out):
            errs.setdefault(f, set()).add(int(l) - 1)
        if not errs or rounds > 30:
            return {"id": m["id"], "status": "stuck", "rounds": rounds, "out": out[-1500:]}
        for f, ls in errs.items():
            if f.startswith("Verif/Model/"):
                return {"id": m["id"], "status": "model error", "out": out[-1500:]}
            lines = open(work + "/" + f).read().split("\n")
            spans = sorted({decl_of(lines, l) for l in ls}, reverse=True)
            for a, b in spans:
                if lines[a].startswith("example"):
                    lines[a:b] = ["example : True := trivial", ""]
                    continue
                s = sorried("\n".join(lines[a:b]))
                if s is None:
                    return {"id": m["id"], "status": "cannot sorry", "out": "%s:%d" % (f, a + 1)}
                hit.add(lines[a].split("(")[0].split(":")[0].strip()[:60] + " @" + f)
                lines[a:b] = s.split("\n")
            open(work + "/" + f, "w").write("\n".join(lines))
    names = sorted({n for mod in cone(mods) for n in inside[mod]})
    with open(work + "/Report.lean", "w") as f:
        f.write("".join("import %s\n" % x for x in mods) + "".join("#print axioms Knx.%s\n" % n for n in names))
    out = subprocess.run(["lake", "env", "lean", "Report.lean"], cwd=work, capture_output=True, text=True).stdout
    flat = re.sub(r"\s+", " ", out)
    failed = sorted(n for n, ax in re.findall(r"'Knx\.(\S+?)' depends on axioms: \[([^\]]*)\]", flat) if "sorryAx" in ax)
    missed = [b for b in breaks if not set(claims.get(b, [])) & set(failed)]
    return {"id": m["id"], "status": "ok", "rounds": rounds, "secs": round(time.time() - t0), "failed": failed, "missed": missed,
            "broken": sorted(hit)}

done = set()
if os.path.exists(results):
    done = {json.loads(l)["id"] for l in open(results)}
todo = [json.loads(l) for l in open(mutants)]
todo = [m for m in todo if (m["id"] in only if only else m["id"] not in done)]
for m in todo:
    try:
        r = run(m)
    except AssertionError as e:
        r = {"id": m["id"], "status": "no match", "out": str(e)}
    with open(results, "a") as f:
        f.write(json.dumps(r, ensure_ascii=False) + "\n")
