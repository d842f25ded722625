#!/usr/bin/env python3
"""Automatic mutation tests: python3 tools/automutate.py [seed [count [file...]]]
Makes small random edits in lean/Verif/Model (comparisons, constants, exceptions, branches), builds a scratch copy until the first error, and appends a line
to seeded/LOG.jsonl for each.  Edits that change nothing the build notices are printed as SURVIVED and have to be looked at.
While the file /tmp/automutate.pause exists nothing is started."""
import glob, json, os, random, re, shutil, signal, subprocess, sys, time
here = os.path.dirname(os.path.abspath(__file__)); root = os.path.dirname(here)
args = sys.argv[1:]
import mutate as M
seed = int(args[0]) if args else 1
count = int(args[1]) if len(args) > 1 else 50
files = args[2:]
OPS = [(r" \+ 1\b", " + 2"), (r" \+ 1\b", ""), (r" - 1\b", ""), (r" < ", " ≤ "), (r" ≤ ", " < "), (r" > ", " ≥ "), (r" ≠ ", " = "), (r"(?<=if )(.*?) = ", r"\1 ≠ "),
       (r"\btrue\b", "false"), (r"\bfalse\b", "true"), (r" && ", " || "), (r" \|\| ", " && "), (r" ∧ ", " ∨ "), (r" ∨ ", " ∧ "), (r" == ", " != "), (r" != ", " == "),
       (r"\.ValueError\b", ".TypeError"), (r"\.IndexError\b", ".ValueError"), (r"\.KeyError\b", ".ValueError"), (r"\.TypeError\b", ".ValueError"),
       (r"\.RuntimeError\b", ".ValueError"), (r"(?<=[ (\[])0(?=[ )\],])", "1"), (r"(?<=[ (\[])1(?=[ )\],])", "2"), (r"(?<=[ (\[])2(?=[ )\],])", "3"),
       (r"\.reverse\b", ""), (r"\.head\?", ".getLast?"), (r"'([a-zA-Z=<>\-*;|,])'", "'%'"), (r"\.erase\b", ".cons"), (r"\.dedup\b", ""), (r"∪", "∩"), (r"∩", "∪"),
       (r"\.1\b", ".2"), (r"\.2\b", ".1"), (r" \* ", " + "), (r" / ", " % "), (r" % ", " / "), (r"\.filter\b", ".partition"), (r"if !", "if ")]

def candidates():
    out = []
    for p in sorted(glob.glob(root + "/lean/Verif/Model/*.lean")):
        name = os.path.basename(p)
        if files and name not in files: continue
        text = open(p).read()
        masked = re.sub(r"/-.*?-/", lambda m: re.sub(r"[^\n]", "\0", m.group(0)), text, flags=re.S)
        masked = re.sub(r"--[^\n]*", lambda m: "\0" * len(m.group(0)), masked)
        body = False
        pos = 0
        for line in masked.splitlines(True):
            if re.match(r"(def|abbrev|private def|instance)\b", line): body = True
            elif re.match(r"(theorem|lemma|example|open|namespace|end|variable|section|import|set_option|inductive|structure|deriving|termination_by|decreasing_by)\b", line): body = False
            if body:
                start = line.find(":=") if re.match(r"(def|abbrev|private def|instance)\b", line) else -1
                for pat, rep in OPS:
                    for m in re.finditer(pat, line):
                        if m.start() < start: continue
                        new = m.expand(rep) if "\\" in rep else rep
                        out.append((name, pos + m.start(), pos + m.end(), new))
            pos += len(line)
    return out

def definition(text, at):
    ms = list(re.finditer(r"^(?:private )?(?:def|abbrev|instance)\s+(\S+)", text[:at], re.M))
    return ms[-1].group(1) if ms else "?"

def build():
    p = subprocess.Popen(["nice", "-n", "10", "lake", "build"], cwd=M.scratch, stdout=subprocess.PIPE, stderr=subprocess.STDOUT, text=True, start_new_session=True)
    out = []
    for l in p.stdout:
        out.append(l)
        if re.match(r"error: Verif/", l):
            time.sleep(0.2)
            os.killpg(p.pid, signal.SIGKILL)
            break
    p.wait()
    return p.returncode != 0, "".join(out)

def main():
    M.snapshot()
    rng = random.Random(seed)
    cs = candidates()
    rng.shuffle(cs)
    done = {json.loads(l)["mutation"] for l in open(M.log)}
    for k, (name, a, b, new) in enumerate(cs[:count]):
        mid = "A%d-%03d" % (seed, k)
        if mid in done: continue
        while os.path.exists("/tmp/automutate.pause"): time.sleep(5)
        text = open(M.base + "/lean/Verif/Model/" + name).read()
        if text != open(root + "/lean/Verif/Model/" + name).read(): continue
        shutil.rmtree(M.scratch, ignore_errors=True)
        shutil.copytree(M.base + "/lean", M.scratch, symlinks=True)
        f = M.scratch + "/Verif/Model/" + name
        open(f, "w").write(text[:a] + new + text[b:])
        ls = text.rfind("\n", 0, a) + 1; le = text.find("\n", b)
        edit = "%s  ==>  %s" % (text[ls:le].strip(), (text[ls:a] + new + text[b:le]).strip())
        caught, out = build()
        errs = re.findall(r"error: (Verif/\S+?\.lean):(\d+):\d+", out)
        failed = []
        for p, l in errs:
            n = M.decl_at(os.path.join(M.scratch, p), int(l))
            if n and n not in failed: failed.append(n)
        if errs and errs[0][0] == "Verif/Model/" + name and caught:
            print(mid, name, "does not compile", flush=True); continue
        line = dict(mutation=mid, definition=definition(text, a), file="lean/Verif/Model/" + name, edit=edit, claim=[], failed=failed, caught=caught,
                    claim_theorems_no_longer_checked=[], tightened=[], note="automatic edit; the build was stopped at the first error")
        open(M.log, "a").write(json.dumps(line) + "\n")
        print(mid, name, "caught" if caught else "SURVIVED", definition(text, a), "|", edit, "|", failed[:2], flush=True)

main()
