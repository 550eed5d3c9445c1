#!/usr/bin/env python3
"""Rewrites the last section of DESIGN.md: the axioms each theorem of MANIFEST.json depends on."""
import json, os, re, subprocess, tempfile
ROOT = os.path.join(os.path.dirname(os.path.abspath(__file__)), "..")
names = [t for c in json.load(open(os.path.join(ROOT, "MANIFEST.json")))["claims"] for t in c["theorems"]]
with tempfile.NamedTemporaryFile("w", suffix=".lean", delete=False) as f:
    f.write("import Verif\n" + "".join(f"#print axioms {n}\n" for n in names))
out = subprocess.run(["lake", "env", "lean", f.name], cwd=os.path.join(ROOT, "lean"), capture_output=True, text=True).stdout
os.unlink(f.name)
groups = {}
for n, ax in re.findall(r"'([^']+)' (does not depend on any axioms|depends on axioms: \[[^\]]*\])", out):
    key = ", ".join(sorted(re.findall(r"[\w.]+", ax.split(":")[1]))) if ":" in ax else "none"
    groups.setdefault(key, []).append(n.split(".")[-1])
assert sum(map(len, groups.values())) == len(names), (len(names), out[-500:])
text = "".join(f"* {k} ({len(v)}): {', '.join(sorted(v))}.\n" for k, v in sorted(groups.items(), key=lambda g: len(g[1])))
p = os.path.join(ROOT, "DESIGN.md")
s = open(p).read()
open(p, "w").write(s[:s.index("<!-- axioms -->")] + "<!-- axioms -->\n" + text)
print({k: len(v) for k, v in groups.items()})
