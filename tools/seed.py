"""Seeded-bug runner: apply an edit to a model definition in a scratch copy, rebuild, log what fails.

Usage: seed.py edits.json   with [{"file","def","old","new","edit","claim","expect"}...]
"expect" is the property id (or list) whose theorem must fail. Prints SURVIVED for edits nothing caught.
"""
import json, os, re, subprocess, sys, glob

root = os.path.dirname(os.path.dirname(os.path.abspath(__file__)))
scratch = "/tmp/scratch"
os.makedirs(scratch, exist_ok=True)
subprocess.run(["rsync", "-a", "--delete", root + "/lean/", scratch + "/lean/"], check=True) if os.path.exists("/usr/bin/rsync") else subprocess.run(f"rm -rf {scratch}/lean && cp -a {root}/lean {scratch}/lean", shell=True, check=True)

def decls(path):
    """(name, start line, text) for every theorem/def/lemma/example in a file."""
    out, cur = [], None
    for i, line in enumerate(open(path), 1):
        m = re.match(r"(?:@\[.*\] )?(?:private )?(?:theorem|lemma|def|instance|example|inductive|structure)\s*(\S*)", line)
        if m:
            n = m.group(1)
            cur = ["example" if not n or not re.match(r"[A-Za-z_]", n) else n, i, ""]
            out.append(cur)
        if cur:
            cur[2] += line
    return out

def enclosing(path, ln):
    name = None
    for n, s, _ in decls(path):
        if s <= ln:
            name = n
    return name

def imports(path, seen=None):
    """The files a file imports, directly or not, and itself."""
    seen = set() if seen is None else seen
    if path in seen or not os.path.exists(path):
        return seen
    seen.add(path)
    for line in open(path):
        m = re.match(r"import (Verif\.\S+)", line)
        if m:
            imports(scratch + "/lean/" + m.group(1).replace(".", "/") + ".lean", seen)
    return seen

def dependents(failed, areas):
    """Names of declarations that mention a failed one, by name, in files that import its file."""
    ths = []
    for f in [f for a in areas for f in glob.glob(scratch + "/lean/Verif/" + a + "/*.lean")]:
        up = imports(f)
        ths += [(f, up, n, t) for n, _, t in decls(f)]
    failed = set(failed)
    changed = True
    while changed:
        changed = False
        for f, up, n, t in ths:
            if (f, n) not in failed and n != "example" and any(g in up and re.search((r"(?<![\w'])" if "." not in x else r"\.") + re.escape(x.split(".")[-1]) + r"(?![\w'])", t) for g, x in failed if x and x != "example"):
                failed.add((f, n))
                changed = True
    return {n for _, n in failed}

edits = json.load(open(sys.argv[1]))
log = open(root + "/seeded/LOG.jsonl", "a")
for e in edits:
    p = f"{scratch}/lean/{e['file']}"
    src = open(p).read()
    if src.count(e["old"]) < 1:
        print("NOT FOUND", e["def"], e["old"]); continue
    open(p, "w").write(src.replace(e["old"], e["new"], 1))
    r = subprocess.run(["lake", "build"] + e.get("targets", []), cwd=scratch + "/lean", capture_output=True, text=True)
    out = r.stdout + r.stderr
    failed = []
    where = []
    modelbroken = False
    for m in re.finditer(r"error: (Verif/\S+?\.lean):(\d+):\d+: (.*)", out):
        n = enclosing(f"{scratch}/lean/{m.group(1)}", int(m.group(2)))
        if n and n not in failed:
            failed.append(n)
            where.append((f"{scratch}/lean/{m.group(1)}", n))
        if m.group(1) == e["file"] and not n.startswith("C") and "Model" in e["file"]:
            modelbroken = True
    open(p, "w").write(src)
    deps = sorted(x for x in dependents(where, e.get('areas', [e['file'].split('/')[1]])) if re.match(r"C\d+_", x))
    exp = e.get("expect", [])
    exp = [exp] if isinstance(exp, str) else exp
    caught = [i for i in exp if any(d.startswith(i + "_") for d in deps)]
    status = "OK" if failed and len(caught) == len(exp) else ("SURVIVED" if not failed else "CHECK")
    print(status, "model-does-not-compile?" if modelbroken else "", e["def"], "|", e["edit"], "|", failed[:6], "->", deps[:8])
    sys.stdout.flush()
    if status == "OK" and not modelbroken and not e.get("nolog"):
        log.write(json.dumps({"definition": e["def"], "file": e["file"], "edit": e["edit"], "claim_broken": e["claim"],
                              "theorems_failed": failed, "property_theorems_affected": deps, "theorems_tightened": e.get("tightened", [])}) + "\n")
        log.flush()
subprocess.run(["true"])
