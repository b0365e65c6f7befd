#!/usr/bin/env python3
"""Regenerates the appendix of DESIGN.md: the axioms of every theorem of MANIFEST.json, as printed by Lean."""
import json, os, re, subprocess, tempfile
root = os.path.dirname(os.path.dirname(os.path.abspath(__file__)))
names = [t for c in json.load(open(f"{root}/MANIFEST.json"))["claims"] for t in c["theorems"]]
with tempfile.NamedTemporaryFile("w", suffix=".lean", delete=False) as f:
    f.write("import Verif\n" + "".join(f"#print axioms {n}\n" for n in names))
out = subprocess.run(["lake", "env", "lean", f.name], cwd=f"{root}/lean", capture_output=True, text=True).stdout
os.unlink(f.name)
groups = {}
for m in re.finditer(r"'([^']+)' (does not depend on any axioms|depends on axioms: \[([^\]]*)\])", out):
    key = ", ".join(sorted(a.strip() for a in (m.group(3) or "").split(",") if a.strip())) or "no axioms"
    groups.setdefault(key, []).append(m.group(1).split(".")[-1])
assert sum(map(len, groups.values())) == len(names), (len(names), out[:2000])
text = ["## Appendix: axioms of every theorem in MANIFEST.json", "",
        "Generated by `tools/axioms.py` from Lean's `#print axioms`.", ""]
for k in sorted(groups):
    text += [f"**{k}** ({len(groups[k])}):", ", ".join(groups[k]), ""]
p = f"{root}/DESIGN.md"
s = open(p).read()
i = s.find("## Appendix: axioms")
s = (s if i < 0 else s[:i]).rstrip() + "\n\n" + "\n".join(text)
open(p, "w").write(s)
print({k: len(v) for k, v in groups.items()})
