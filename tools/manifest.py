#!/usr/bin/env python3
"""Regenerates /verif/MANIFEST.json from the table below."""
import json, os
C = []
def claim(p, status, thms, note=""):
    C.append({"property": p, "status": status, "theorems": ["Narp.Props." + t for t in thms.split()], "note": note})
exec(open(os.path.join(os.path.dirname(__file__), "claims.py")).read())
C.sort(key=lambda c: c["property"])
json.dump({"claims": C}, open(os.path.join(os.path.dirname(__file__), "..", "MANIFEST.json"), "w"), indent=1)
