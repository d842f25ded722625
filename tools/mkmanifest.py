import glob, json, os, re
here = os.path.dirname(os.path.abspath(__file__))
from claims import CLAIMS
names = {}
for f in sorted(glob.glob(os.path.join(here, "../lean/Verif/Props/**/*.lean"), recursive=True)):
    ns = []
    for line in open(f):
        m = re.match(r"namespace (\S+)", line)
        if m: ns.append(m.group(1))
        m = re.match(r"end (\S+)", line)
        if m and ns and ns[-1] == m.group(1): ns.pop()
        m = re.match(r"(?:private )?theorem ((C\d\d+)\w*)", line)
        if m: names.setdefault(m.group(2), []).append(".".join(ns + [m.group(1)]))
out = []
for k in sorted(CLAIMS, key=lambda x: int(x[1:])):
    status, note = CLAIMS[k]
    out.append({"property": k, "status": status, "theorems": names.get(k, []), "note": note})
    assert names.get(k), k
for k in names:
    if k not in CLAIMS: print("no claim for", k)
json.dump({"claims": out}, open(os.path.join(here, "../MANIFEST.json"), "w"), indent=1)
# audit file
mods = sorted(re.sub(r".*lean/(Verif/Props/.*)\.lean", r"\1", f).replace("/", ".") for f in glob.glob(os.path.join(here, "../lean/Verif/Props/**/*.lean"), recursive=True))
with open(os.path.join(here, "../lean/Verif/Audit.lean"), "w") as f:
    f.write("".join("import %s\n" % m for m in mods))
    f.write("\nset_option autoImplicit false\n\n/-! The axioms of all property theorems (written by tools/mkmanifest.py). -/\n\n")
    for k in sorted(names, key=lambda x: int(x[1:])):
        for n in names[k]: f.write("#print axioms %s\n" % n)
with open(os.path.join(here, "../lean/Verif.lean"), "w") as f:
    f.write("".join("import %s\n" % m for m in mods) + "import Verif.Audit\n")
print(len(out), sum(len(c["theorems"]) for c in out))
