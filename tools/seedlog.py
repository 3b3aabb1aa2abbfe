"""Turn the raw results of tools/mutate.py into seeded/LOG.jsonl.

A wrong program often breaks a helper lemma first; the manifest theorems that rest on that lemma (found by following names through the
sources) are then listed as failing too, after the declarations that failed directly."""
import glob, json, os, re, sys
ROOT = "/verif/lean/Verif"
raw = sys.argv[1] if len(sys.argv) > 1 else "/tmp/mut/results.jsonl"
DECL = re.compile(r"^(?:@\[[^\]]*\] *)?(?:private +|protected +|noncomputable +)*(?:theorem|lemma|def|abbrev|instance|structure|inductive) +([^\s:({\[]+)", re.M)
TOK = re.compile(r"[A-Za-zα-ωΑ-Ω_][\w.'₀-₉]*")
text, where = {}, {}
for f in glob.glob(ROOT + "/**/*.lean", recursive=True):
    s = open(f).read()
    ms = list(DECL.finditer(s))
    for m, n in zip(ms, ms[1:] + [None]):
        name = m.group(1)
        body = s[m.start(): n.start() if n else len(s)]
        body = re.split(r"^example", body, flags=re.M)[0]
        text[name] = text.get(name, "") + body
        where[name] = os.path.relpath(f, ROOT)[:-5]
used_by = {}
for n, b in text.items():
    for t in set(TOK.findall(b)):
        for cand in {t, t.split(".")[-1]}:
            if cand in text and cand != n:
                used_by.setdefault(cand, set()).add(n)
manifest = [t for c in json.load(open("/verif/MANIFEST.json"))["claims"] for t in (x.replace("OpenNTN.", "") for x in c["theorems"])]
TITLE = {p["id"]: p["title"] for p in map(json.loads, open("/verif/properties.jsonl"))}
def dependents(x):
    seen, todo = {x}, [x]
    while todo:
        for y in used_by.get(todo.pop(), ()):
            if y not in seen and where[y].split("/")[0] in ("Lemmas", "Props"):
                seen.add(y); todo.append(y)
    return [t for t in manifest if t in seen]
# what was changed in /verif after a wrong program got through (or was stopped by an example only)
TIGHTENED = json.load(open("/verif/tools/tightened.json"))
best = {}
for l in open(raw):
    r = json.loads(l); best[r["name"]] = r
out = []
for r in best.values():
    direct = [x.split(":")[1] for x in r["failed"]]
    if any(x.startswith("Model/") for x in r["failed"]):
        continue  # the edit does not type check, so it is no program
    if not r["ok"] and not r["failed"]:
        continue  # the build ran out of memory
    th = [x for x in direct if not x.startswith("example")]
    dep = []
    for x in th:
        for t in dependents(x):
            if t not in th and t not in dep: dep.append(t)
    t = TIGHTENED.get(r["name"], {})
    fast = "stopped at the first failing module" in r["mods"]
    claim = t.get("claim", r["claim"])
    if not claim:  # mechanical edit: the first property whose theorem fails
        ids = [re.match(r"C\d+", x).group(0) for x in [x for x in th if x in manifest] + dep if re.match(r"C\d+", x)]
        claim = f"{ids[0]}: {TITLE[ids[0]]}" if ids else ""
    remark = t.get("remark", "") or ("Mechanical edit; the build was stopped at the first failing module, other theorems fail as well." if fast and th else "")
    out.append({"id": r["name"], "definition": r["module"] + ": " + r["definition"], "edit": {"from": r["old"], "to": r["new"]},
                "claim_broken": claim, "failed_directly": direct, "theorems_failed": [x for x in th if x in manifest] + dep,
                "theorems_tightened": t.get("tightened", []), "remark": remark})
with open("/verif/seeded/LOG.jsonl", "w") as f:
    for o in out: f.write(json.dumps(o, ensure_ascii=False) + "\n")
print(len(out), "entries;", sum(1 for o in out if not o["theorems_failed"]), "without failing manifest theorem:", [o["id"] for o in out if not o["theorems_failed"]])
