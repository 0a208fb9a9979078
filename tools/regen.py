"""Regenerate lean/Verif.lean (imports of every module) and MANIFEST.json (from tools/claims.py)."""
import json, pathlib, re, sys
root = pathlib.Path(__file__).resolve().parent.parent
lean = root / "lean"
mods = sorted(str(p.relative_to(lean))[:-5].replace("/", ".") for p in (lean / "Verif").rglob("*.lean"))
(lean / "Verif.lean").write_text("".join(f"import {m}\n" for m in mods))
names = set()
for p in (lean / "Verif").rglob("*.lean"):
    ns = []
    for line in p.read_text().splitlines():
        m = re.match(r"namespace\s+(\S+)", line)
        if m: ns.append(m.group(1))
        m = re.match(r"end\s+(\S+)", line)
        if m and ns and ns[-1] == m.group(1): ns.pop()
        m = re.match(r"(?:@\[[^\]]*\]\s*)?(?:theorem|lemma)\s+(\S+)", line)
        if m: names.add(".".join(ns + [m.group(1)]))
sys.path.insert(0, str(root / "tools"))
from claims import CLAIMS
props = [json.loads(l)["id"] for l in (root / "properties.jsonl").read_text().splitlines() if l.strip()]
out = []
for pid, status, thms, note in sorted(CLAIMS):
    full = ["Hydrax." + t for t in thms.split()]
    for t in full:
        if t not in names: print("MISSING", pid, t)
    if pid not in props: print("UNKNOWN PROPERTY", pid)
    out.append({"property": pid, "status": status, "theorems": full, "note": note})
missing = [p for p in props if p not in {c["property"] for c in out}]
print("no claim yet:", missing)
(root / "MANIFEST.json").write_text(json.dumps({"claims": out}, indent=1, ensure_ascii=False) + "\n")
# generated table of DESIGN.md
where = {}
for p in (lean / "Verif").rglob("*.lean"):
    for m in re.finditer(r"^(?:@\[[^\]]*\]\s*)?(?:theorem|lemma)\s+(\S+)", p.read_text(), re.M):
        where.setdefault(m.group(1), str(p.relative_to(lean / "Verif"))[:-5])
axf = root / "tools" / "axioms.json"
axioms = json.loads(axf.read_text()) if axf.exists() else {}
titles = {d["id"]: d["title"] for d in map(json.loads, (root / "properties.jsonl").read_text().splitlines())}
rows = ["| id | property | status | theorems | module | note |", "|---|---|---|---|---|---|"]
for c in out:
    ths = []
    for t in c["theorems"]:
        ax = axioms.get(t)
        mark = "" if ax is None or len(ax) == 3 else " (" + ("".join({"propext": "P", "Classical.choice": "C", "Quot.sound": "Q"}[a] for a in ax) or "none") + ")"
        ths.append(f"`{t.split('.', 1)[1]}`{mark}")
    files = sorted({where.get(t.split(".", 1)[1], "?") for t in c["theorems"]})
    rows.append(f"| {c['property']} | {titles[c['property']]} | {c['status']} | {', '.join(ths)} | {', '.join(files)} | {c['note'].replace('|', '/')} |")
dpath = root / "DESIGN.md"
head = dpath.read_text().split("<!-- generated -->")[0]
dpath.write_text(head + "<!-- generated -->\n" + "\n".join(rows) + "\n")
