"""Writes AXIOMS.md: the axioms each claimed theorem depends on (run after `lake build`)."""
import json, subprocess, re
M = json.load(open("/verif/MANIFEST.json"))
names = [t for c in M["claims"] for t in c["theorems"]]
src = "import Verif\n" + "".join(f"#print axioms {n}\n" for n in names)
open("/tmp/ax.lean", "w").write(src)
out = subprocess.run(["lake", "env", "lean", "/tmp/ax.lean"], cwd="/verif/lean", capture_output=True, text=True).stdout
out = re.sub(r"\n +", " ", out)
got = dict(re.findall(r"'([^']+)' depends on axioms: \[([^\]]*)\]", out))
none = set(re.findall(r"'([^']+)' does not depend on any axioms", out))
with open("/verif/AXIOMS.md", "w") as f:
    f.write("# Axioms of the claimed theorems\n\nOutput of `#print axioms`, made by `tools/axioms.py`.\n\n| theorem | axioms |\n|---|---|\n")
    for n in names:
        assert n in got or n in none, n
        f.write(f"| `{n}` | {got.get(n, 'none')} |\n")
print(len(names), set(got.values()))
