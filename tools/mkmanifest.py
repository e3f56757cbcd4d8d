#!/usr/bin/env python3
"""Write MANIFEST.json and lean/Verif.lean from the property files.

A property is `partial` as soon as one of its theorems is called `..._partial` or `..._refuted`.
Notes are kept in tools/notes.json (property id -> text)."""
import json, pathlib, re

root = pathlib.Path(__file__).resolve().parent.parent
lean = root / "lean"
notes = json.loads((root / "tools" / "notes.json").read_text())
thms = {}
for f in sorted((lean / "Verif" / "Props").rglob("*.lean")):
    ns = []
    for line in f.read_text().splitlines():
        m = re.match(r"namespace (\S+)", line)
        if m:
            ns.append(m.group(1))
        m = re.match(r"end (\S+)", line)
        if m and ns and ns[-1] == m.group(1):
            ns.pop()
        m = re.match(r"(?:@\[[^\]]*\] )?theorem (C\d\d+_\S+)", line)
        if m:
            pid = m.group(1).split("_")[0]
            thms.setdefault(pid, []).append(".".join(ns + [m.group(1)]))
claims = []
for l in (root / "properties.jsonl").read_text().splitlines():
    pid = json.loads(l)["id"]
    if pid not in thms:
        continue
    part = any(t.endswith(("_partial", "_refuted")) for t in thms[pid])
    claims.append({"property": pid, "status": "partial" if part else "proved",
                   "theorems": thms[pid], "note": notes.get(pid, "")})
(root / "MANIFEST.json").write_text(json.dumps({"claims": claims}, indent=1) + "\n")
mods = sorted(str(p.relative_to(lean))[:-5].replace("/", ".") for p in (lean / "Verif").rglob("*.lean"))
(lean / "Verif.lean").write_text("".join(f"import {m}\n" for m in mods))
print(len(claims), "claims,", sum(map(len, thms.values())), "theorems; missing notes:",
      [c["property"] for c in claims if not c["note"]])
