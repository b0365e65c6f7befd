#!/usr/bin/env python3
"""Regenerate MANIFEST.json from the theorem names in lean/Verif and the notes below."""
import json, re, os, glob
root = os.path.dirname(os.path.dirname(os.path.abspath(__file__)))
notes = json.load(open(os.path.join(root, "tools", "notes.json")))
thms = {}
for f in sorted(glob.glob(os.path.join(root, "lean/Verif/**/*.lean"), recursive=True)):
    ns = []
    for line in open(f):
        m = re.match(r"namespace (\S+)", line)
        if m: ns.append(m.group(1))
        m = re.match(r"end (\S+)", line)
        if m and ns and ns[-1] == m.group(1): ns.pop()
        m = re.match(r"(?:@\[[^\]]*\] )?(?:private )?theorem (C\d\d\d?)_(\S+)", line)
        if m:
            name = ".".join(ns + [m.group(1) + "_" + m.group(2)])
            thms.setdefault(m.group(1), []).append(name)
claims = []
for line in open(os.path.join(root, "properties.jsonl")):
    pid = json.loads(line)["id"]
    ts = thms.pop(pid, [])
    st, note = notes.get(pid, [None, ""])
    if not ts:
        if st != "not_applicable":
            continue
    if st is None:
        st = "partial" if all("_partial" in t for t in ts) else "proved"
    claims.append({"property": pid, "status": st, "theorems": ts, "note": note})
if thms:
    print("theorems without property:", thms)
json.dump({"claims": claims}, open(os.path.join(root, "MANIFEST.json"), "w"), indent=1)
print(len(claims), "claims")
