#!/usr/bin/env python3
"""Regenerates /verif/MANIFEST.json from the table below (property -> status, theorems, note)."""
import json, os
C = {}
def claim(p, status, theorems, note=""):
    C[p] = {"property": p, "status": status, "theorems": theorems, "note": note}
exec(open(os.path.join(os.path.dirname(__file__), "claims.py")).read())
ids = [json.loads(l)["id"] for l in open(os.path.join(os.path.dirname(__file__), "..", "properties.jsonl"))]
out = [C[i] for i in ids if i in C]
json.dump({"claims": out}, open(os.path.join(os.path.dirname(__file__), "..", "MANIFEST.json"), "w"), indent=1)
print(len(out), "of", len(ids), "claimed; missing:", [i for i in ids if i not in C])
