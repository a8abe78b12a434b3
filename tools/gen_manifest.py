#!/usr/bin/env python3
"""Write MANIFEST.json from the theorem names in lean/Verif/Props and tools/status.json."""
import glob, json, re, os
root = os.path.dirname(os.path.dirname(os.path.abspath(__file__)))
props = [json.loads(l)["id"] for l in open(f"{root}/properties.jsonl")]
status = json.load(open(f"{root}/tools/status.json"))
found = {}
for f in sorted(glob.glob(f"{root}/lean/Verif/Props/*.lean")):
    stack = []
    for line in open(f):
        m = re.match(r"^namespace (\S+)", line)
        if m:
            stack.append(m.group(1))
        m = re.match(r"^end (\S+)", line)
        if m and stack and stack[-1] == m.group(1):
            stack.pop()
        m = re.match(r"^theorem ((\w+\.)*)(C\d\d+)_(\S+)", line)
        if m:
            found.setdefault(m.group(3), []).append(".".join(stack) + "." + m.group(1) + m.group(3) + "_" + m.group(4))
claims = []
for p in props:
    if p not in found:
        continue
    st, note = status.get(p, ["partial", ""])
    claims.append({"property": p, "status": st, "theorems": found[p], "note": note})
json.dump({"claims": claims}, open(f"{root}/MANIFEST.json", "w"), indent=1)
print(len(claims), "claims;", "missing:", [p for p in props if p not in found], "no status:", [p for p in found if p not in status])
