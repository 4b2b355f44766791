"""Writes MANIFEST.json.  Theorem names are given without the OPE. prefix."""
import json, os
here = os.path.dirname(os.path.abspath(__file__))
C = []
def claim(p, status, theorems, note):
    C.append({"property": p, "status": status, "theorems": ["OPE." + t for t in theorems], "note": note})
exec(open(os.path.join(here, "claims.py")).read())
json.dump({"claims": C}, open(os.path.join(here, "..", "MANIFEST.json"), "w"), indent=1)
print(len(C), "claims")
