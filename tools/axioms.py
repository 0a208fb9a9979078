"""Write tools/axioms.json: the axioms each manifest theorem depends on (needs a finished build)."""
import json, pathlib, re, subprocess, tempfile
root = pathlib.Path(__file__).resolve().parent.parent
names = sorted({t for c in json.loads((root / "MANIFEST.json").read_text())["claims"] for t in c["theorems"]})
src = "import Verif\n" + "".join(f"#print axioms {n}\n" for n in names)
with tempfile.NamedTemporaryFile("w", suffix=".lean", delete=False) as f:
    f.write(src)
out = subprocess.run(["lake", "env", "lean", f.name], cwd=root / "lean", capture_output=True, text=True).stdout
res = {}
for m in re.finditer(r"'(\S+)' depends on axioms: \[([^\]]*)\]", out):
    res[m.group(1)] = [a.strip() for a in m.group(2).split(",")]
for m in re.finditer(r"'(\S+)' does not depend on any axioms", out):
    res[m.group(1)] = []
missing = [n for n in names if n not in res]
print(len(res), "theorems, missing:", missing)
(root / "tools" / "axioms.json").write_text(json.dumps(res, indent=0) + "\n")
