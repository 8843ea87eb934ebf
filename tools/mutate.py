#!/usr/bin/env python3
"""Run mutation experiments: mutate.py FILE.json
FILE.json: a list of {file, old, new, definition, edit, claim}.  Each edit is applied to a scratch copy of
lean/, the project is rebuilt, and one line per experiment goes to seeded/LOG.jsonl unless the edit does not
compile as a model (an error inside Verif/Model), in which case it is reported and not logged."""
import json, os, re, subprocess, sys
root = os.path.dirname(os.path.dirname(os.path.abspath(__file__)))
scratch = "/tmp/mut"
def sh(*a, **k): return subprocess.run(a, capture_output=True, text=True, **k)
def enclosing(path, line):
    name = None
    for i, l in enumerate(open(path), 1):
        m = re.match(r"\s*(?:@\[[^\]]*\]\s*)?(?:private )?(theorem|def|example|instance|abbrev)\s*(\S*)", l)
        if m: name = m.group(2) if m.group(1) != "example" else "example after " + (last or "")
        if m and m.group(1) == "theorem": last = m.group(2)
        if i == line: return name
    return name
last = None
def run(exps):
    os.makedirs(scratch, exist_ok=True)
    sh("rsync", "-a", "--delete", root + "/lean/", scratch + "/lean/") if False else sh("sh", "-c", f"rm -rf {scratch}/lean; cp -a {root}/lean {scratch}/lean")
    for e in exps:
        p = f"{scratch}/lean/Verif/{e['file']}.lean"
        src = open(p).read()
        if src.count(e["old"]) != 1:
            print("SKIP (occurrences: %d): %s" % (src.count(e["old"]), e["edit"])); continue
        open(p, "w").write(src.replace(e["old"], e["new"]))
        r = sh("lake", "build", cwd=scratch + "/lean")
        out = r.stdout + r.stderr
        fails, modelerr, notbuilt = [], [], []
        for m in re.finditer(r"^error: (Verif/\S+\.lean):(\d+):\d+", out, re.M):
            n = enclosing(f"{scratch}/lean/" + m.group(1), int(m.group(2)))
            (modelerr if m.group(1).startswith("Verif/Model") else fails).append(n)
        fails = list(dict.fromkeys(fails))
        open(p, "w").write(src)
        if modelerr:
            print("MODEL ERROR", e["edit"], modelerr); print(out[:1500]); continue
        ok = r.returncode == 0
        print(("SURVIVED " if ok else "killed   ") + e["edit"], fails, flush=True)
        line = {"definition": e["definition"], "edit": e["edit"], "claim": e["claim"], "failed": fails, "tightened": e.get("tightened", [])}
        if ok: line["survived"] = True
        json.dump(line, open("/tmp/mutw/last.jsonl", "a"), ensure_ascii=False); open("/tmp/mutw/last.jsonl", "a").write("\n")
        with open(root + "/seeded/LOG.jsonl", "a") as f: f.write(json.dumps(line, ensure_ascii=False) + "\n")
run(json.load(open(sys.argv[1])))
