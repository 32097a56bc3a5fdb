#!/usr/bin/env python3
"""Writes /verif/MANIFEST.json: collects the property theorems Cxx_* in lean/Verif/Props by prefix.
A property is "partial" if one of its theorems has the suffix _partial or it is listed in NOTES with a
forced status."""
import json, re, glob, os
root = os.path.dirname(os.path.dirname(os.path.abspath(__file__)))
props = [json.loads(l) for l in open(root + "/properties.jsonl")]
thms = {}
for f in sorted(glob.glob(root + "/lean/Verif/Props/*.lean")):
    stack = []
    for line in re.sub(r"/-.*?-/", "", open(f).read(), flags=re.S).split("\n"):
        if m := re.match(r"namespace (\S+)", line):
            stack.append(m.group(1))
        elif m := re.match(r"section\b\s*(\S*)", line):
            stack.append("")
        elif re.match(r"(noncomputable )?(mutual)\b", line):
            stack.append("")
        elif re.match(r"end\b", line):
            stack.pop()
        elif m := re.match(r"theorem (C(\d\d\d?)_[A-Za-z0-9_']*)", line):
            thms.setdefault("C" + m.group(2), []).append(".".join([x for x in stack if x] + [m.group(1)]))
NOTES = json.load(open(root + "/tools/manifest_notes.json"))
claims = []
for p in props:
    i = p["id"]
    t = thms.get(i, [])
    if not t:
        continue
    n = NOTES.get(i, {})
    st = n.get("status") or ("partial" if any(x.endswith("_partial") for x in t) else "proved")
    claims.append({"property": i, "status": st, "theorems": t, "note": n.get("note", "")})
json.dump({"claims": claims}, open(root + "/MANIFEST.json", "w"), indent=1, ensure_ascii=False)
print(len(claims), "claims", sum(c["status"] == "proved" for c in claims), "proved;", "missing:",
      [p["id"] for p in props if p["id"] not in thms])
