"""Writes seeded/LOG.jsonl from the records of the scratch runs (arguments: *.out files)."""
import json, os, re, sys
here = os.path.dirname(os.path.abspath(__file__))
lean = os.path.join(here, "..", "lean", "Verif")
man = {c["property"]: c["theorems"] for c in json.load(open(os.path.join(here, "..", "MANIFEST.json")))["claims"]}
# mutants that an earlier version of the theorems did not notice: the claims added or tightened for them
extra = json.load(open(os.path.join(here, "tightened.json")))
def definition(f, old):
    s = open(os.path.join(lean, f + ".lean")).read()
    k = s.find(old)
    if k < 0: k = s.find(old.split("\n")[0])
    if k < 0: return f
    k += len(old) - len(old.lstrip())
    ds = list(re.finditer(r"^(?:private |noncomputable |@\[[^\]]*\] *)*(?:def|theorem|structure|inductive|abbrev|instance)\s+(\S+)", s[:k + 200], re.M))
    ds = [d for d in ds if d.start() <= k + 1]
    return f"Verif/{f}.lean: {ds[-1].group(1)}" if ds else f
seen = {}
for p in sys.argv[1:]:
    for l in open(p):
        r = json.loads(l); seen[r["id"]] = r
# claims that were expected to break when the mutant was written but, on analysis, stay true of the edited program
wrong = json.load(open(os.path.join(here, "corrections.json")))
for i, cs in wrong.items():
    if i in seen:
        for k in ("breaks", "missed"): seen[i][k] = [x for x in seen[i][k] if x not in cs]
with open(os.path.join(here, "..", "seeded", "LOG.jsonl"), "w") as o:
    for i, r in seen.items():
        if not r["breaks"]: continue  # breaks no claim (or was run again under another name with the right expectation)
        failed = sorted({t for c in r["breaks"] for t in r["claims"].get(c, [])})
        t = [x for c in extra.get(i, []) for x in man.get(c, [c])]
        o.write(json.dumps({
            "id": i, "definition": "; ".join(dict.fromkeys(definition(e[0], e[1]) for e in r["edits"])),
            "edit": "; ".join(f"`{e[1].strip()}` -> `{e[2].strip()}`" for e in r["edits"]), "bug": r["desc"],
            "claims_broken": r["breaks"], "theorems_failed": failed,
            "claims_not_noticed": r["missed"], "theorems_tightened": t}, ensure_ascii=False) + "\n")
print(len(seen))
