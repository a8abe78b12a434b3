#!/usr/bin/env python3
"""Write DESIGN.md from tools/design.md, putting in the axioms of every theorem (tools/axioms.txt)."""
import os, subprocess
root = os.path.dirname(os.path.dirname(os.path.abspath(__file__)))
out = subprocess.run(["lake", "env", "lean", "../tools/axioms.txt"], cwd=f"{root}/lean", capture_output=True, text=True, check=True).stdout
groups = {}
for l in out.splitlines():
    name, _, ax = l.partition(" ")
    groups.setdefault(ax.strip() or "no axioms", []).append(name)
txt = ""
for ax in sorted(groups, key=lambda a: len(a)):
    txt += f"* **{ax}** ({len(groups[ax])}): " + ", ".join(f"`{n}`" for n in groups[ax]) + "\n"
src = open(f"{root}/tools/design.md").read()
open(f"{root}/DESIGN.md", "w").write(src.replace("@@AXIOMS@@", txt.rstrip()))
print({a: len(b) for a, b in groups.items()})
