#!/usr/bin/env python3
"""Systematic mutation: automutate.py [-n PER_DEF] [-s SEED] [MODULE ...]
For each definition of Verif/Model that seeded/LOG.jsonl does not name yet (or of the named modules), apply up to
PER_DEF small edits, one at a time, in a scratch copy and rebuild until the first failing theorem.  Edits that
break the build are logged; survivors are printed, to be looked at by hand."""
import json, os, re, subprocess, sys, random, signal, glob, time
root = os.path.dirname(os.path.dirname(os.path.abspath(__file__)))
scratch = os.environ.get("MUTDIR", "/tmp/mut2")
args = sys.argv[1:]
per, seed = 2, 1
if "-n" in args: i = args.index("-n"); per = int(args[i+1]); del args[i:i+2]
if "-s" in args: i = args.index("-s"); seed = int(args[i+1]); del args[i:i+2]
rng = random.Random(seed)
titles = {json.loads(l)["id"]: json.loads(l)["title"] for l in open(root + "/properties.jsonl")}

OPS = [(r" = (?=[^>\n]*\bthen\b)", " ≠ "), (r" ≠ ", " = "), (r" ∧ ", " ∨ "), (r" ∨ ", " ∧ "), (r" && ", " || "), (r" \|\| ", " && "),
  (r" < ", " ≤ "), (r" ≤ ", " < "), (r" > ", " ≥ "), (r" \+ 1\b", ""), (r" - 1\b", ""), (r"\btrue\b", "false"), (r"\bfalse\b", "true"),
  (r"(?<== )false\b", "true"), (r"\.any ", ".all "), (r"\.all ", ".any "), (r"\.take ", ".drop "), (r"\.drop ", ".take "),
  (r"\bnone => none\b", None), (r"([\w.]+) \+\+ ([\w.]+)", r"\2 ++ \1"), (r"\{ (\w+) with [\w.]+ := [^,{}⟨]*, ", r"{ \1 with "),
  (r"\bif ([^\n]*?) then ([^\n]*?) else ([^\n]*)$", r"if \1 then \3 else \2"), (r"(?<![\w.])(\d+)(?![\w.])", "NUM"),
  (r"\.filter \(fun", ".filterNot (fun"), (r"\.isSome\b", ".isNone"), (r"\.isNone\b", ".isSome"), (r"\.find\? ", ".findRev? "),
  (r"decide \(([^()]*) = ([^()]*)\)", r"decide (\1 ≠ \2)"), (r"\bnot\b|!(?=\w)", ""), (r"\.getD \[\]", ".getD [0]"),
  (r"\.1\b", ".2"), (r"\.2\b", ".1"), (r"\.head\?", ".getLast?"), (r"\.tail\b", ".dropLast")]

def defs(text):
    starts = [m for m in re.finditer(r"^(?:private )?(def|abbrev|structure|inductive|theorem|instance|end|namespace|/--|open|mutual|termination_by|decreasing_by)\b[ ]?([\w.']*)", text, re.M)]
    starts += [m for m in re.finditer(r"^()()/-", text, re.M)]
    starts.sort(key=lambda m: m.start())
    for i, m in enumerate(starts):
        if m.group(1) == "def":
            end = starts[i+1].start() if i + 1 < len(starts) else len(text)
            body = text[m.start():end]
            k = re.search(r":=|^\s*\|", body, re.M)
            if k: yield m.group(2), m.start() + k.start(), end

def mutants(text, a, b):
    out = []
    for pat, rep in OPS:
        if rep is None: continue
        for m in re.finditer(pat, text[a:b], re.M):
            if re.search(r"--", text[a:b][text[a:b].rfind("\n", 0, m.start())+1:m.start()]): continue
            if rep == "NUM": new = str(int(m.group(0)) + 1)
            elif rep == ".filterNot (fun": new = ".filter (fun x => !(fun"; continue
            elif rep == ".findRev? ": new = ".reverse.find? "
            else: new = m.expand(rep)
            if new != m.group(0): out.append((a + m.start(), a + m.end(), m.group(0), new))
    rng.shuffle(out)
    return out

def enclosing(path, line):
    name, last = None, ""
    for i, l in enumerate(open(path), 1):
        m = re.match(r"\s*(?:@\[[^\]]*\]\s*)?(?:private )?(theorem|def|example|instance|abbrev)\s*(\S*)", l)
        if m: name = m.group(2) if m.group(1) != "example" else "example after " + last
        if m and m.group(1) == "theorem": last = m.group(2)
        if i == line: return name
    return name

imports = {}
for f in glob.glob(root + "/lean/Verif/**/*.lean", recursive=True):
    mod = f[len(root + "/lean/"):-5].replace("/", ".")
    imports[mod] = re.findall(r"^import (Verif\.\S+)", open(f).read(), re.M)
def closure(m, seen):
    for i in imports.get(m, []):
        if i not in seen: seen.add(i); closure(i, seen)
    return seen
ids = {}
for mod in imports:
    if mod.startswith("Verif.Props."):
        cs = sorted(set(re.findall(r"^theorem (C\d+)_", open(root + "/lean/" + mod.replace(".", "/") + ".lean").read(), re.M)))
        for d in closure(mod, set()) | {mod}: ids.setdefault(d, {}).setdefault(mod, cs)
def claim(mod, thm):
    m = re.match(r"(C\d+)_", thm or "")
    if m: return m.group(1) + ": " + titles.get(m.group(1), "")
    ms = ids.get(mod, {})
    same = [k for k in ms if k.split(".")[-1] == mod.split(".")[-1]] or sorted(ms, key=lambda k: len(closure(k, set())))[:1]
    cs = [c for k in same for c in ms[k]][:2]
    return "; ".join(c + ": " + titles.get(c, "") for c in cs)

def build():
    p = subprocess.Popen(["nice", "-n", "10", "lake", "build"], cwd=scratch + "/lean", stdout=subprocess.PIPE, stderr=subprocess.STDOUT, text=True, preexec_fn=os.setsid)
    fails, model = [], False
    def alarm(*_):
        try: os.killpg(p.pid, signal.SIGKILL)
        except ProcessLookupError: pass
    signal.signal(signal.SIGALRM, alarm); signal.alarm(600)
    done = False
    for l in p.stdout:
        m = re.match(r"error: (Verif/\S+)\.lean:(\d+):", l)
        if m:
            if m.group(1).startswith("Verif/Model"): model = True
            else: fails.append((m.group(1).replace("/", "."), enclosing(f"{scratch}/lean/{m.group(1)}.lean", int(m.group(2)))))
        elif fails or model:
            if re.match(r"[✖✔⚠ℹ] ", l) or l.startswith("error: Lean exited"): done = True
        if done: alarm(); break
    signal.alarm(0)
    rc = p.wait()
    try: os.killpg(p.pid, signal.SIGKILL)
    except ProcessLookupError: pass
    return rc, fails, model

def main():
    logged = set()
    for l in open(root + "/seeded/LOG.jsonl"):
        for k in re.findall(r"[A-Za-z_][\w.']*", json.loads(l).get("definition", "")): logged.add(k.split(".")[-1])
    os.makedirs(scratch, exist_ok=True)
    subprocess.run(["sh", "-c", f"rm -rf {scratch}/lean; cp -a {root}/lean {scratch}/lean"])
    mods = args or [os.path.basename(f)[:-5] for f in sorted(glob.glob(root + "/lean/Verif/Model/*.lean"))]
    for mod in mods:
        p = f"{scratch}/lean/Verif/Model/{mod}.lean"
        text = open(p).read()
        for name, a, b in list(defs(text)):
            if not args and name.split(".")[-1] in logged: continue
            n = 0
            for s, e, old, new in mutants(text, a, b)[:per * 3]:
                if n >= per: break
                open(p, "w").write(text[:s] + new + text[e:])
                t = time.time()
                rc, fails, model = build()
                open(p, "w").write(text)
                line = text[text.rfind("\n", 0, s)+1:text.find("\n", e)].strip()
                mline = (text[text.rfind("\n", 0, s)+1:s] + new + text[e:text.find("\n", e)]).strip()
                if model: continue
                n += 1
                names = list(dict.fromkeys(x[1] for x in fails))
                print("%s %s.%s  %s  ==>  %s %s %ds" % ("SURVIVED" if rc == 0 else "killed", mod, name, line, mline, names, time.time() - t), flush=True)
                if fails or rc == 0:
                    with open(root + "/seeded/LOG.jsonl", "a") as f:
                        f.write(json.dumps({"definition": name, "edit": f"`{line}` becomes `{mline}`", "claim": claim(*fails[0]) if fails else "", "failed": names, "tightened": [], **({} if fails else {"survived": True})}, ensure_ascii=False) + "\n")
main()
