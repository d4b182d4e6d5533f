#!/usr/bin/env python3
"""Regenerate MANIFEST.json: theorem names are collected from the Lean sources (theorem Cxx_...), status/notes from
tools/notes.json.  A property with no notes entry and theorems, none ending in _partial, is 'proved'."""
import re, json, pathlib
root = pathlib.Path(__file__).resolve().parent.parent
notes = json.loads((root / "tools/notes.json").read_text())
props = [json.loads(l) for l in (root / "properties.jsonl").read_text().splitlines() if l.strip()]
th = {}
for f in sorted((root / "lean/Verif").rglob("*.lean")):
    ns = []
    for line in f.read_text().splitlines():
        m = re.match(r"namespace (\S+)", line)
        if m: ns.append(m.group(1))
        m = re.match(r"end (\S+)", line)
        if m and ns and ns[-1] == m.group(1): ns.pop()
        m = re.match(r"theorem (C(\d\d+)_\S+)", line)
        if m:
            th.setdefault("C" + m.group(2), []).append(".".join(ns + [m.group(1)]))
claims = []
for p in props:
    i = p["id"]; n = notes.get(i, {})
    t = th.get(i, [])
    t += n.get("extra", [])
    st = n.get("status") or ("proved" if t and not any(x.endswith("_partial") for x in t) else "partial")
    claims.append({"property": i, "status": st, "theorems": t, "note": n.get("note", "" if t else "No theorem yet.")})
(root / "MANIFEST.json").write_text(json.dumps({"claims": claims}, indent=1, ensure_ascii=False) + "\n")
from collections import Counter
print(Counter(c["status"] for c in claims), [c["property"] for c in claims if not c["theorems"]])
