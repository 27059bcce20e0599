#!/usr/bin/env python3
"""Regenerate MANIFEST.json from properties.jsonl and the theorems in lean/Verif/Props.

Theorems are named C<nn>_...; notes are kept in notes.json. A property is `partial` if one of
its theorems has the suffix _partial, `proved` if it has theorems and none is partial."""
import glob, json, os, re
root = os.path.dirname(os.path.dirname(os.path.abspath(__file__)))
notes = json.load(open(os.path.join(root, "scripts", "notes.json")))
found = {}
for f in sorted(glob.glob(os.path.join(root, "lean/Verif/Props/*.lean"))):
    for m in re.finditer(r"^theorem (C(\d\d\d?)_\w+)", open(f).read(), re.M):
        found.setdefault("C" + m.group(2), []).append("Cdx.Props." + m.group(1))
claims = []
for line in open(os.path.join(root, "properties.jsonl")):
    p = json.loads(line)["id"]
    ths = found.pop(p, [])
    status = notes.get(p, {}).get("status") or (
        "not_applicable" if not ths else
        "partial" if any(t.endswith("_partial") for t in ths) else "proved")
    note = notes.get(p, {}).get("note", "" if ths else "Not proved yet.")
    claims.append({"property": p, "status": status, "theorems": ths, "note": note})
assert not found, found
assert all(c["theorems"] for c in claims), [c["property"] for c in claims if not c["theorems"]]
json.dump({"claims": claims}, open(os.path.join(root, "MANIFEST.json"), "w"), indent=1)
print({s: sum(c["status"] == s for c in claims) for s in ("proved", "partial", "not_applicable")})
