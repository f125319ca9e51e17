#!/usr/bin/env python3
"""Writes /verif/MANIFEST.json from the table below; properties not listed are reported by name."""
import json
C = {}
def claim(pid, status, theorems, note=""):
    C[pid] = {"property": pid, "status": status, "theorems": ["Modes." + t if not t.startswith(("Modes.", "Spec.")) else t for t in theorems.split()], "note": note}
exec(open('/verif/tools/claims.py').read())
# entry points: also the theorem about the text translated from the code (tools/go2lean)
for pid in "C01 C02 C03 C04 C05 C13 C14 C16 C18".split():
    C[pid]["theorems"] += ["Modes.code_" + t[6:] for t in C[pid]["theorems"] if t != "Modes.overlaid_exists"]
for pid, t in [("C24", "code_adsb_accepts"), ("C25", "code_adsb_result"), ("C42", "code_commB"), ("C43", "code_commB")]:
    C[pid]["theorems"].append("Modes." + t)
ids = [json.loads(l)["id"] for l in open('/verif/properties.jsonl')]
missing = [i for i in ids if i not in C]
print("missing:", missing)
json.dump({"claims": [C[i] for i in ids if i in C]}, open('/verif/MANIFEST.json', 'w'), indent=1, ensure_ascii=False)
