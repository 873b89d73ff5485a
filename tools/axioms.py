#!/usr/bin/env python3
"""Write into DESIGN.md a table of the axioms every theorem of MANIFEST.json depends on (needs a finished build)."""
import json, pathlib, re, subprocess, tempfile

root = pathlib.Path(__file__).resolve().parent.parent
claims = json.loads((root / "MANIFEST.json").read_text())["claims"]
names = [t for c in claims for t in c["theorems"]]
with tempfile.NamedTemporaryFile("w", suffix=".lean", delete=False) as f:
    f.write("import Verif\n" + "".join(f"#print axioms {n}\n" for n in names))
out = subprocess.run(["lake", "env", "lean", f.name], cwd=root / "lean", capture_output=True, text=True).stdout
out = out.replace("\n  ", " ")
used = {}
for m in re.finditer(r"'(\S+)' (does not depend on any axioms|depends on axioms: \[([^\]]*)\])", out):
    used[m.group(1)] = tuple(sorted(a.strip() for a in (m.group(3) or "").split(",") if a.strip()))
groups = {}
for n in names:
    groups.setdefault(used[n], []).append(n.split(".")[-1])
table = "| axioms | theorems |\n|---|---|\n"
for axioms in sorted(groups):
    table += f"| {', '.join(axioms) or 'none'} | {', '.join(groups[axioms])} |\n"
design = root / "DESIGN.md"
text = design.read_text()
head, tail = text.split("<!-- axioms -->\n")[0], text.split("<!-- end -->")[1]
design.write_text(head + "<!-- axioms -->\n" + table + "<!-- end -->" + tail)
