#!/usr/bin/env python3
"""Regenerate MANIFEST.json from the theorem names in lean/Verif/Props and the notes in tools/notes.json.

A theorem belongs to property Cnn when its name starts with Cnn_.  tools/notes.json maps a property id
to [status, note]."""
import json, re, glob, os
root = os.path.dirname(os.path.dirname(os.path.abspath(__file__)))
notes = json.load(open(f"{root}/tools/notes.json"))
props = [json.loads(l)["id"] for l in open(f"{root}/properties.jsonl") if l.strip()]
thms = {}
for f in sorted(glob.glob(f"{root}/lean/Verif/Props/**/*.lean", recursive=True)):
    ns = []
    for line in open(f):
        m = re.match(r"namespace\s+(\S+)", line)
        if m: ns.append(m.group(1))
        m = re.match(r"end\s+(\S+)", line)
        if m and ns and ns[-1] == m.group(1): ns.pop()
        m = re.match(r"theorem\s+((C\d+)_\S+)", line)
        if m: thms.setdefault(m.group(2), []).append(".".join(ns + [m.group(1)]))
claims = []
for p in props:
    if p in notes and p in thms:
        claims.append({"property": p, "status": notes[p][0], "theorems": thms[p], "note": notes[p][1]})
    elif p in notes and notes[p][0] == "not_applicable":
        claims.append({"property": p, "status": "not_applicable", "theorems": [], "note": notes[p][1]})
    else:
        print("no claim for", p)
for p in thms:
    if p not in props or p not in notes: print("theorem without note/property:", p)
json.dump({"claims": claims}, open(f"{root}/MANIFEST.json", "w"), indent=1, ensure_ascii=False)
