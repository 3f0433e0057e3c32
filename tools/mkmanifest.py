#!/usr/bin/env python3
"""Regenerate MANIFEST.json from the theorem names in lean/Verif and tools/notes.json.

A property is "partial" if one of its theorems is named *_partial or *_violated, or if
notes.json overrides its status; "proved" if it has theorems otherwise.
"""
import json, os, re
root = os.path.dirname(os.path.dirname(os.path.abspath(__file__)))
ids = [json.loads(l)["id"] for l in open(f"{root}/properties.jsonl") if l.strip()]
notes = json.load(open(f"{root}/tools/notes.json"))
thms = {i: [] for i in ids}
for d, _, fs in sorted(os.walk(f"{root}/lean/Verif")):
    for f in sorted(fs):
        if not f.endswith(".lean"):
            continue
        ns = []
        for line in open(os.path.join(d, f)):
            m = re.match(r"namespace (\S+)", line)
            if m:
                ns.append(m.group(1)); continue
            m = re.match(r"end (\S+)", line)
            if m and ns and ns[-1] == m.group(1):
                ns.pop(); continue
            m = re.match(r"(?:protected |private )?theorem (C\d\d+)(_\w+)", line)
            if m:
                name = ".".join(ns + [m.group(1) + m.group(2)])
                if m.group(1) not in thms:
                    print("unknown property", name); continue
                thms[m.group(1)].append(name)
claims = []
for i in ids:
    n = notes.get(i, {})
    ts = thms[i]
    if ts:
        st = "partial" if any(t.endswith("_partial") or t.endswith("_violated") for t in ts) else "proved"
    else:
        st = None
    st = n.get("status", st)
    if st is None:
        continue
    claims.append({"property": i, "status": st, "theorems": ts, "note": n.get("note", "")})
json.dump({"claims": claims}, open(f"{root}/MANIFEST.json", "w"), indent=1, ensure_ascii=False)
print(len(claims), "claims;", sum(c["status"] == "proved" for c in claims), "proved;",
      "missing:", [i for i in ids if not thms[i]])
