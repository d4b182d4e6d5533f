#!/usr/bin/env python3
"""Regenerate DESIGN.md from tools/design_head.md, tools/design_methods.json, tools/design_tail.md, properties and manifest."""
import json, pathlib
root = pathlib.Path(__file__).resolve().parent.parent
meth = json.loads((root / "tools/design_methods.json").read_text())
props = [json.loads(l) for l in (root / "properties.jsonl").read_text().splitlines() if l.strip()]
man = {c["property"]: c for c in json.loads((root / "MANIFEST.json").read_text())["claims"]}
out = [(root / "tools/design_head.md").read_text().rstrip(), "", "## Per property: what is modelled and how it is proved", "",
       "| id | property | modules under `lean/Verif` | method | status |", "|---|---|---|---|---|"]
for p in props:
    a, m = meth[p["id"]]
    out.append(f"| {p['id']} | {p['title']} | {a} | {m} | {man[p['id']]['status']} |")
out += ["", "Every property could be expressed in the model. What a partial theorem leaves out, and which theorems show the code "
        "violating the property, is said in the note of its claim in MANIFEST.json.", "", (root / "tools/design_tail.md").read_text().rstrip(), ""]
(root / "DESIGN.md").write_text("\n".join(out))
