#!/usr/bin/env python3
"""Seeded bugs: edits of the model in a scratch copy, rebuilt, with the outcome appended to seeded/LOG.jsonl.

usage: mutate.py MUTATIONS.py [ID...]

MUTATIONS.py defines M, a list of dicts
  id      a name, logged
  file    path below lean/Verif/Model
  old,new the edit; nth (0 by default) says which occurrence of old
  d       the definition that is edited
  edit    the edit in words
  claim   the claim that it breaks, in words, or "" if none is broken
  props   the property modules to build, e.g. ["C51", "C52"]
"""
import json, os, re, subprocess, sys, shutil

ROOT = os.path.abspath(os.path.join(os.path.dirname(__file__), ".."))
SCRATCH = os.environ.get("MUTDIR", "/tmp/mut")
LOG = os.path.join(ROOT, "seeded", "LOG.jsonl")

def sync():
    os.makedirs(SCRATCH, exist_ok=True)
    subprocess.run(["rsync", "-a", "--delete", ROOT + "/lean/", SCRATCH + "/lean/"], check=True) if shutil.which("rsync") else \
        subprocess.run(f"rm -rf {SCRATCH}/lean && cp -a {ROOT}/lean {SCRATCH}/lean", shell=True, check=True)

def imports(mod, cache={}):
    if mod in cache: return cache[mod]
    cache[mod] = set()
    p = f"{SCRATCH}/lean/" + mod.replace(".", "/") + ".lean"
    if not os.path.exists(p): return cache[mod]
    r = set()
    for l in open(p):
        m = re.match(r"import (Verif\S*)", l)
        if m: r.add(m.group(1)); r |= imports(m.group(1))
    cache[mod] = r
    return r

def theorem_at(path, line):
    name = "?"
    for i, l in enumerate(open(path), 1):
        if i > line: break
        m = re.match(r"\s*(?:@\[[^\]]*\]\s*)?(?:private |protected )?(?:theorem|lemma|def|instance|abbrev) (\S+)", l)
        if m: name = m.group(1)
        elif re.match(r"example", l): name = f"example (line {i})"
        elif re.match(r"#guard", l): name = f"test (line {i})"
    return name

def theorems(mod):
    p = f"{SCRATCH}/lean/" + mod.replace(".", "/") + ".lean"
    return re.findall(r"^theorem (C\d\d\S*)", open(p).read(), re.M)

def run(m, timeout=1500):
    p = f"{SCRATCH}/lean/Verif/Model/" + m["file"]
    src = open(p).read()
    parts = src.split(m["old"])
    n = m.get("nth", 0)
    if len(parts) < n + 2: raise SystemExit(f"{m['id']}: text not found")
    if "nth" not in m and len(parts) != 2: raise SystemExit(f"{m['id']}: text not unique ({len(parts)-1})")
    new = m["old"].join(parts[:n+1]) + m["new"] + m["old"].join(parts[n+1:])
    open(p, "w").write(new)
    targets = ["Verif.Props." + x for x in m["props"]] + ["Verif.Test." + x for x in m.get("tests", [])]
    try:
        try:
            out = subprocess.run(["lake", "build"] + targets, cwd=SCRATCH + "/lean", capture_output=True, text=True, timeout=timeout)
            text = out.stdout + out.stderr; rc = out.returncode
        except subprocess.TimeoutExpired as e:
            text = ((e.stdout or b"").decode() + (e.stderr or b"").decode()); rc = "timeout"
            subprocess.run("pkill -f '^/app/toolchains.*/bin/lean " + SCRATCH + "'", shell=True)
    finally:
        open(p, "w").write(src)
    errs = {}
    for f, l in re.findall(r"^error: (Verif/\S+?\.lean):(\d+):", text, re.M):
        t = theorem_at(f"{SCRATCH}/lean/{f}", int(l))
        errs.setdefault(f[:-5].replace("/", "."), []).append(t)
    failed = set(errs) | set(re.findall(r"^- (Verif\S+)", text, re.M))
    lemmas = sorted({mod.replace("Verif.", "") + ": " + t for mod in errs for t in errs[mod]})
    direct, blocked, alive = [], [], []
    for t in targets:
        if t in errs:
            names = sorted(set(errs[t]))
            direct += [x for x in names if x.startswith("C")] or [t + " " + x for x in names]
        elif imports(t) & failed: blocked.append(t.replace("Verif.", ""))
        elif t in failed: blocked.append(t.replace("Verif.", ""))
        else: alive.append(t.replace("Verif.", ""))
    return rc, lemmas, direct, blocked, alive

def main():
    ns = {}
    exec(open(sys.argv[1]).read(), ns)
    ids = sys.argv[2:]
    if not os.environ.get("NOSYNC"): sync()
    done = {json.loads(l)["id"] for l in open(LOG)} if os.path.exists(LOG) else set()
    for m in ns["M"]:
        if ids and m["id"] not in ids: continue
        if not ids and m["id"] in done: continue
        rc, lemmas, direct, blocked, alive = run(m)
        th = list(direct)
        for b in blocked:
            if b.startswith("Props."):
                th += [t for t in theorems("Verif." + b) if re.search(m.get("match", ""), t, re.I)]
        rec = {"id": m["id"], "definition": m["d"], "file": "lean/Verif/Model/" + m["file"], "edit": m["edit"], "old": m["old"], "new": m["new"],
               "claim_broken": m["claim"], "failed_at": lemmas[:12], "theorems_failed": sorted(set(th)), "modules_not_built": blocked, "modules_still_proved": alive,
               "theorems_tightened": m.get("tightened", [])}
        if rc == "timeout": rec["note"] = "build stopped at the time limit"
        print(m["id"], "rc", rc, "| failed at:", "; ".join(lemmas[:4]), "| blocked:", blocked, "| alive:", alive, flush=True)
        if os.environ.get("DRY"): continue
        with open(LOG, "a") as f: f.write(json.dumps(rec) + "\n")

main()
