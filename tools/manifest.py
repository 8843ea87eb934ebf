#!/usr/bin/env python3
"""Regenerate MANIFEST.json from the theorem names in lean/Verif/Props and notes.json."""
import glob, json, os, re
root = os.path.dirname(os.path.dirname(os.path.abspath(__file__)))
notes = json.load(open(os.path.join(root, "tools", "notes.json")))
thms = {}
for f in sorted(glob.glob(os.path.join(root, "lean/Verif/Props/*.lean"))):
    ns = []
    for line in open(f):
        m = re.match(r"namespace (\S+)", line)
        if m: ns.append(m.group(1))
        m = re.match(r"end (\S+)", line)
        if m and ns and ns[-1] == m.group(1): ns.pop()
        m = re.match(r"(?:private )?theorem ((C\d\d+)_\S+)", line)
        if m: thms.setdefault(m.group(2), []).append(".".join(ns + [m.group(1)]))
docs = {}
for f in sorted(glob.glob(os.path.join(root, "lean/Verif/Props/*.lean"))):
    for m in re.finditer(r"/--((?:(?!-/).)*?)-/\s*theorem (C\d\d+_\w*(?:_violated|_partial))\b", open(f).read(), re.S):
        t = " ".join(m.group(1).split())
        t = re.sub(r"^\**C\d\d+\**\s*(\*\*)?(\([^)]*\)|, (another )?disagreement|, partial)?(\*\*)?\s*[:,]?\s*", "", t)
        docs[m.group(2)] = t[:1].upper() + t[1:]
claims = []
for l in open(os.path.join(root, "properties.jsonl")):
    p = json.loads(l)["id"]
    n = notes.get(p, {})
    t = thms.get(p, [])
    status = n.get("status")
    if status is None:
        partial = any(x.endswith("_partial") or x.endswith("_violated") for x in t)
        status = "partial" if (partial or not t) else "proved"
    claims.append({"property": p, "status": status, "theorems": t, "note": n.get("note") or " ".join(
        f"{x.split('.')[-1]}: {docs[x.split('.')[-1]]}" for x in t if x.split(".")[-1] in docs) or ("" if t else "not started")})
json.dump({"claims": claims}, open(os.path.join(root, "MANIFEST.json"), "w"), indent=1, ensure_ascii=False)
print({s: sum(c["status"] == s for c in claims) for s in ("proved", "partial", "not_applicable")}, "no theorems:", [c["property"] for c in claims if not c["theorems"]])
