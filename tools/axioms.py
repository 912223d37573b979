#!/usr/bin/env python3
"""Rewrite the list of axioms at the end of DESIGN.md (run after `lake build`)."""
import json, os, re, subprocess, tempfile
root = os.path.dirname(os.path.dirname(os.path.abspath(__file__)))
ts = [t for c in json.load(open(root + "/MANIFEST.json"))["claims"] for t in c["theorems"]]
with tempfile.NamedTemporaryFile("w", suffix=".lean", delete=False) as f:
    f.write("import Verif\n" + "".join(f"#print axioms {t}\n" for t in ts))
out = subprocess.run(["lake", "env", "lean", f.name], cwd=root + "/lean", capture_output=True, text=True).stdout
os.unlink(f.name)
ax = {}
for m in re.finditer(r"'(\S+)' (?:depends on axioms: \[([^\]]*)\]|does not depend on any axioms)", out):
    ax[m.group(1)] = re.sub(r"\s+", " ", m.group(2) or "none")
assert all(t in ax for t in ts), [t for t in ts if t not in ax]
p = root + "/DESIGN.md"
s = open(p).read()
mark = "<!-- axioms -->\n"
s = s[: s.index(mark) + len(mark)] + "\n"
for k in sorted(set(ax.values())):
    s += f"`{k}`:\n\n" + "".join(f"* `{t}`\n" for t in ts if ax[t] == k) + "\n"
open(p, "w").write(s.rstrip("\n") + "\n")
