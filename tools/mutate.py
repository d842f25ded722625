#!/usr/bin/env python3
"""Mutation tests: python3 tools/mutate.py [ids...]
Applies each wrong edit of tools/mutations.py to a scratch copy of lean/ (outside /verif), builds, and appends a line to
seeded/LOG.jsonl saying which theorems no longer check.  Without arguments all mutations not yet logged are run."""
import glob, json, os, re, shutil, subprocess, sys
from mutations import MUTATIONS
here = os.path.dirname(os.path.abspath(__file__)); root = os.path.dirname(here)
scratch = "/tmp/mutation/lean"; log = os.path.join(root, "seeded", "LOG.jsonl")
DECL = re.compile(r"^(?:private |protected |@\[[^\]]*\] )*(theorem|lemma|def|instance|example|abbrev|structure|inductive)\b\s*([^\s:({\[]*)")

def decl_at(path, line):
    name, ns = None, []
    for i, l in enumerate(open(path), 1):
        m = re.match(r"namespace (\S+)", l)
        if m: ns.append(m.group(1))
        m = re.match(r"end (\S+)", l)
        if m and ns and ns[-1] == m.group(1): ns.pop()
        if i > line: break
        m = DECL.match(l)
        if m: name = ".".join(ns + [m.group(2)]) if m.group(2) else "example at %s:%d" % (os.path.relpath(path, scratch), i)
    return name

def imports(path):
    return [m.group(1) for l in open(path) for m in [re.match(r"import (Verif\S*)", l)] if m]

base = "/tmp/mutation/base"

def snapshot():
    """The last commit, built, as the starting point of all mutations of this run."""
    os.makedirs(base, exist_ok=True)
    subprocess.run("rm -rf %s/lean/Verif %s/lean/Verif.lean; git archive HEAD lean | tar x -C %s" % (base, base, base), shell=True, cwd=root, check=True)
    if not os.path.exists(base + "/lean/.lake"):
        shutil.copytree(os.path.join(root, "lean", ".lake"), base + "/lean/.lake", symlinks=True)
    subprocess.run(["nice", "lake", "build"], cwd=base + "/lean", check=True, capture_output=True)

def run(m):
    shutil.rmtree(scratch, ignore_errors=True)
    shutil.copytree(base + "/lean", scratch, symlinks=True)
    f = os.path.join(scratch, "Verif", m["file"])
    t = open(f).read()
    assert t.count(m["old"]) == m.get("count", 1), (m["id"], t.count(m["old"]))
    open(f, "w").write(t.replace(m["old"], m["new"]))
    r = subprocess.run(["nice", "lake", "build"], cwd=scratch, capture_output=True, text=True)
    out = r.stdout + r.stderr
    failed, bad = [], set()
    for p, l in re.findall(r"error: (Verif/\S+?\.lean):(\d+):\d+", out):
        n = decl_at(os.path.join(scratch, p), int(l))
        bad.add(p[:-5].replace("/", "."))
        if n and n not in failed: failed.append(n)
    mods = {os.path.relpath(p, scratch)[:-5].replace("/", "."): p for p in glob.glob(scratch + "/Verif/**/*.lean", recursive=True)}
    dep = {k: set(imports(p)) for k, p in mods.items()}
    blocked = set()
    while True:
        new = {k for k in mods if k not in blocked | bad and dep[k] & (bad | blocked)}
        if not new: break
        blocked |= new
    claimed = [n for c in m["claims"] for k, p in mods.items() if ".Props." in k and k in blocked | bad
               for n in re.findall(r"^theorem (%s_\w+)" % c, open(p).read(), re.M)]
    line = dict(mutation=m["id"], definition=m["definition"], file="lean/Verif/" + m["file"], edit="%s  ==>  %s" % (m["old"].strip(), m["new"].strip()),
                claim=m["claims"], failed=failed, caught=r.returncode != 0,
                claim_theorems_no_longer_checked=claimed, tightened=m.get("tightened", []), note=m.get("note", ""))
    old = [l for l in open(log)] if os.path.exists(log) else []
    old = [l for l in old if json.loads(l)["mutation"] != m["id"]]
    open(log, "w").writelines(old + [json.dumps(line) + "\n"])
    print(m["id"], "caught" if line["caught"] else "SURVIVED", failed[:6], flush=True)
    if not failed and line["caught"]: print(out[-2000:])

def main():
  done = {json.loads(l)["mutation"] for l in open(log)} if os.path.exists(log) else set()
  snapshot()
  for m in MUTATIONS:
    if (m["id"] in sys.argv[1:]) or (len(sys.argv) == 1 and m["id"] not in done): run(m)

if __name__ == "__main__": main()
