"""Writes DESIGN.md from design_head.md, design_rows.txt and claims.py."""
import json, os
here = os.path.dirname(os.path.abspath(__file__))
man = {c["property"]: c for c in json.load(open(os.path.join(here, "..", "MANIFEST.json")))["claims"]}
props = [json.loads(l) for l in open(os.path.join(here, "..", "properties.jsonl"))]
info = {}
for l in open(os.path.join(here, "design_rows.txt")):
    ids, a, b = l.rstrip("\n").split("|")
    for i in ids.split(): info[i] = (a, b)
out = open(os.path.join(here, "design_head.md")).read()
out += "| id | property | modelled | proof | status and theorems (prefix `OPE.`) |\n|---|---|---|---|---|\n"
for p in props:
    a, b = info[p["id"]]; c = man[p["id"]]
    t = ", ".join("`" + x[4:] + "`" for x in c["theorems"])
    n = " - " + c["note"] if c["note"] else ""
    out += f"| {p['id']} | {p['title']} | {a} | {b} | {c['status']}: {t}{n} |\n"
out += open(os.path.join(here, "design_tail.md")).read()
open(os.path.join(here, "..", "DESIGN.md"), "w").write(out)
