#!/usr/bin/env python3
"""Fill in the generated parts of DESIGN.md (between the BEGIN/END markers): the axioms each theorem of
MANIFEST.json depends on, and the disagreements and partial theorems with their comments."""
import glob, json, os, re, subprocess, tempfile
root = os.path.dirname(os.path.dirname(os.path.abspath(__file__)))
claims = json.load(open(root + "/MANIFEST.json"))["claims"]
names = [t for c in claims for t in c["theorems"]]
full = [n if n.startswith("Verif.") else "Verif.Props." + n for n in names]
src = "import Verif\n" + "".join(f"#print axioms {n}\n" for n in full)
f = tempfile.NamedTemporaryFile("w", suffix=".lean", delete=False); f.write(src); f.close()
out = subprocess.run(["lake", "env", "lean", f.name], cwd=root + "/lean", capture_output=True, text=True).stdout
groups = {}
for m in re.finditer(r"'([^']+)' (?:depends on axioms: \[([^\]]*)\]|does not depend on any axioms)", out):
    ax = ", ".join(sorted(x.strip() for x in m.group(2).split(","))) if m.group(2) else "none"
    groups.setdefault(ax, []).append(m.group(1).replace("Verif.Props.", ""))
assert sum(map(len, groups.values())) == len(full), (len(full), out[:2000])
axioms = ""
for ax in sorted(groups): axioms += f"* **{ax}** ({len(groups[ax])}): {', '.join(sorted(groups[ax]))}\n"
docs = {}
for p in sorted(glob.glob(root + "/lean/Verif/Props/*.lean")):
    s = open(p).read()
    for m in re.finditer(r"/--((?:(?!-/).)*?)-/\s*theorem (C\d\d+_\w*(?:_violated|_partial))\b", s, re.S):
        t = " ".join(m.group(1).split())
        t = re.sub(r"^\**C\d\d+\**\s*(\*\*)?(\([^)]*\)|, (another )?disagreement|, partial)?(\*\*)?\s*[:,]?\s*", "", t)
        docs[m.group(2)] = (t[:1].upper() + t[1:]).replace("|", "\\|")
def table(suffix):
    rows = "| theorem | what it says |\n|---|---|\n"
    for n in sorted(docs):
        if n.endswith(suffix): rows += f"| `{n}` | {docs[n]} |\n"
    return rows
d = open(root + "/DESIGN.md").read()
for key, text in (("axioms", axioms), ("violated", table("_violated")), ("partial", table("_partial"))):
    d = re.sub(rf"(<!-- BEGIN {key} -->\n).*?(<!-- END {key} -->)", lambda m: m.group(1) + text + m.group(2), d, flags=re.S)
open(root + "/DESIGN.md", "w").write(d)
print({k: len(v) for k, v in groups.items()}, len(docs))
