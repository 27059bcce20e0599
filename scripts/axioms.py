#!/usr/bin/env python3
"""Write AXIOMS.md: the axioms that each theorem of MANIFEST.json depends on, as Lean prints them.
Run after `lake build` in lean/."""
import json, os, re, subprocess, tempfile
root = os.path.dirname(os.path.dirname(os.path.abspath(__file__)))
claims = json.load(open(os.path.join(root, "MANIFEST.json")))["claims"]
names = [t for c in claims for t in c["theorems"]]
with tempfile.NamedTemporaryFile("w", suffix=".lean", delete=False) as f:
    f.write("import Verif\n" + "".join(f"#print axioms {n}\n" for n in names))
out = subprocess.run(["lake", "env", "lean", f.name], cwd=os.path.join(root, "lean"),
                     capture_output=True, text=True).stdout
os.unlink(f.name)
out = re.sub(r"\n\s+", " ", out)
groups = {}
for m in re.finditer(r"'(\S+)' (does not depend on any axioms|depends on axioms: \[([^\]]*)\])", out):
    groups.setdefault(", ".join(sorted(a.strip() for a in (m.group(3) or "").split(",") if a.strip())) or "none", []).append(m.group(1))
assert sum(map(len, groups.values())) == len(names), (len(names), groups)
with open(os.path.join(root, "AXIOMS.md"), "w") as f:
    f.write("# Axioms of the theorems\n\nWritten by `scripts/axioms.py` from `#print axioms`.\n")
    for g in sorted(groups):
        f.write(f"\n## {g}\n\n" + "".join(f"* `{n}`\n" for n in groups[g]))
print({g: len(n) for g, n in groups.items()})
