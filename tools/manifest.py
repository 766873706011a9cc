#!/usr/bin/env python3
"""Rebuild MANIFEST.json from the theorem names in lean/Verif/Props and the notes below."""
import json, os, re
root = os.path.join(os.path.dirname(os.path.abspath(__file__)), "..")
notes = json.load(open(os.path.join(root, "tools", "notes.json")))
thms = {}
for d, _, fs in os.walk(os.path.join(root, "lean", "Verif", "Props")):
    for f in sorted(fs):
        ns = "Verif"
        for line in open(os.path.join(d, f)):
            m = re.match(r"(?:@\[[^\]]*\]\s*)?theorem ((C\d\d+)_\w+)", line)
            if m:
                thms.setdefault(m.group(2), []).append(ns + "." + m.group(1))
claims = []
for line in open(os.path.join(root, "properties.jsonl")):
    p = json.loads(line)["id"]
    n = notes.get(p, {})
    t = thms.get(p, [])
    if not t and n.get("status") != "not_applicable":
        continue
    claims.append({"property": p, "status": n.get("status", "partial"), "theorems": t, "note": n.get("note", "")})
json.dump({"claims": claims}, open(os.path.join(root, "MANIFEST.json"), "w"), indent=1, ensure_ascii=False)
open(os.path.join(root, "MANIFEST.json"), "a").write("\n")
from collections import Counter
print(Counter(c["status"] for c in claims), len(claims))
