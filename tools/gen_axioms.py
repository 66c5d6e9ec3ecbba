#!/usr/bin/env python3
"""Write notes/AXIOMS.txt: the axioms that each theorem of MANIFEST.json depends on (needs a built lean/)."""
import json, subprocess, os, re, collections
root = os.path.dirname(os.path.dirname(os.path.abspath(__file__)))
ths = [t for c in json.load(open(root + "/MANIFEST.json"))["claims"] for t in c["theorems"]]
src = "import Verif\n" + "".join(f"#print axioms {t}\n" for t in ths)
open("/tmp/axioms.lean", "w").write(src)
out = subprocess.run(["lake", "env", "lean", "/tmp/axioms.lean"], cwd=root + "/lean", capture_output=True, text=True).stdout
out = re.sub(r"\n\s+", " ", out)
groups = collections.OrderedDict()
for l in out.splitlines():
    m = re.match(r"'(.*?)' (?:depends on axioms: \[(.*)\]|does not depend on any axioms)", l)
    if not m: print("?", l); continue
    groups.setdefault(", ".join(sorted((m.group(2) or "none").split(", "))), []).append(m.group(1))
with open(root + "/notes/AXIOMS.txt", "w") as f:
    for k in sorted(groups):
        f.write(f"axioms: {k}\n")
        for t in groups[k]: f.write("  " + t.replace("HL.Props.", "") + "\n")
print({k: len(v) for k, v in groups.items()}, sum(map(len, groups.values())), len(ths))
