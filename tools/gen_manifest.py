#!/usr/bin/env python3
"""Write MANIFEST.json from tools/claims.txt.

Each block of claims.txt is a line `C01 status` followed by indented `theorem names` lines and
`note: ...` lines.  Property theorems are also collected from the Lean sources: every theorem whose
name starts with the property id must be listed."""
import json, re, glob, sys
claims = {}
cur = None
for line in open('/verif/tools/claims.txt'):
    line = line.rstrip('\n')
    if not line.strip():
        continue
    m = re.match(r'^(C\d+)\s+(proved|partial|not_applicable)\s*$', line)
    if m:
        cur = {"property": m.group(1), "status": m.group(2), "theorems": [], "note": ""}
        claims[m.group(1)] = cur
    elif line.strip().startswith('note:'):
        cur["note"] = (cur["note"] + " " + line.strip()[5:].strip()).strip()
    else:
        cur["note"] = (cur["note"] + " " + line.strip()).strip()
for f in sorted(glob.glob('/verif/lean/Verif/Props/*.lean')):
    for m in re.finditer(r'^theorem (C(\d+)_\S+)', open(f).read(), re.M):
        pid = 'C' + m.group(2)
        if pid not in claims:
            print('no claim for', m.group(1)); continue
        claims[pid]["theorems"].append('Ssh.' + m.group(1))
props = [json.loads(l)["id"] for l in open('/verif/properties.jsonl')]
out = []
for p in props:
    if p not in claims:
        print('missing claim', p); continue
    out.append(claims[p])
    if not claims[p]["theorems"] and claims[p]["status"] != "not_applicable":
        print('no theorems for', p)
json.dump({"claims": out}, open('/verif/MANIFEST.json', 'w'), indent=1)
print(len(out), 'claims', sum(len(c["theorems"]) for c in out), 'theorems')
