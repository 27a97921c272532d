#!/usr/bin/env python3
"""Collect theorems named Cnn_* from lean/Verif/Props and write MANIFEST.json.
A property is 'proved' if it has theorems and is not listed in PARTIAL; notes come from NOTES."""
import json, os, re, glob
here = os.path.dirname(os.path.dirname(os.path.abspath(__file__)))
ids = [json.loads(l)["id"] for l in open(os.path.join(here, "properties.jsonl"))]
notes = {}
status = {}
npath = os.path.join(here, "tools", "notes.json")
if os.path.exists(npath):
    for k, v in json.load(open(npath)).items():
        notes[k] = v.get("note", "")
        if "status" in v: status[k] = v["status"]
thms = {i: [] for i in ids}
for f in sorted(glob.glob(os.path.join(here, "lean/Verif/**/*.lean"), recursive=True)):
    ns = []
    for line in open(f):
        m = re.match(r"namespace (\S+)", line)
        if m: ns.append(m.group(1)); continue
        m = re.match(r"end (\S+)", line)
        if m and ns and ns[-1] == m.group(1): ns.pop(); continue
        m = re.match(r"(?:@\[[^\]]*\]\s*)?theorem ((C\d+)_\S+)", line)
        if m:
            if m.group(2) in thms: thms[m.group(2)].append(".".join(ns + [m.group(1)]))
            else: print("unknown property for", m.group(1))
claims = []
for i in ids:
    t = thms[i]
    if not t and status.get(i) != "not_applicable":
        print("no theorem for", i); continue
    st = status.get(i)
    if st is None:
        st = "partial" if all(x.endswith("_partial") for x in t) else "proved"
    claims.append({"property": i, "status": st, "theorems": t, "note": notes.get(i, "")})
json.dump({"claims": claims}, open(os.path.join(here, "MANIFEST.json"), "w"), indent=1)
print(len(claims), "claims;", sum(len(c["theorems"]) for c in claims), "theorems")
