#!/usr/bin/env python3
"""Single source for properties.jsonl and MANIFEST.json (run from /verif/tools)."""
import json, os
P = []
def prop(id, title, statement, quantifier, why, anchors, status="planned", theorems=(), note=""):
    P.append(dict(id=id, title=title, statement=statement, quantifier=quantifier,
                  why_tests_cant=why, anchors=anchors, status=status,
                  theorems=list(theorems), note=note))
exec(open(os.path.join(os.path.dirname(os.path.abspath(__file__)), "props_data.py")).read())
exec(open(os.path.join(os.path.dirname(os.path.abspath(__file__)), "status.py")).read())
for p in P:
    if p["id"] in S:
        p["status"], p["theorems"], p["note"] = S[p["id"]]
root = os.path.join(os.path.dirname(os.path.abspath(__file__)), "..")
with open(os.path.join(root, "properties.jsonl"), "w") as f:
    for p in P:
        f.write(json.dumps({k: p[k] for k in ("id","title","statement","quantifier","why_tests_cant","anchors")}) + "\n")
claims = [dict(property=p["id"], status=p["status"], theorems=p["theorems"], note=p["note"])
          for p in P if p["status"] != "planned"]
with open(os.path.join(root, "MANIFEST.json"), "w") as f:
    json.dump({"claims": claims}, f, indent=1)
    f.write("\n")
print(len(P), "properties,", len(claims), "claims")
