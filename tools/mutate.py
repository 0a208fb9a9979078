#!/usr/bin/env python3
"""Mutation testing of the theorems.

usage: mutate.py MUTANTS.json RESULTS.jsonl

Each mutant is {"file","old","new","def","edit","claims":[...]} with `file` relative to lean/Verif.
The edit is applied to a scratch copy of the Lake project outside /verif, the copy is rebuilt, and the
declarations with errors are recorded, together with the theorems of MANIFEST.json that use them
(directly or through other lemmas). The modules with the theorems of the claims are built first; if these
all pass, everything is built. A mutant with no errors survives.
"""
import json, os, re, subprocess, sys, collections

LIVE, SRC, MUT = "/verif/lean", "/tmp/mut/src", "/tmp/mut/lean"
DEPS = "/tmp/mut/deps.json"

LEAN = r'''
import Verif
open Lean
partial def go (env : Environment) (n : Name) (seen : NameSet) : NameSet :=
  if seen.contains n then seen else
  if !(`Hydrax).isPrefixOf n then seen else
  match env.find? n with
  | none => seen
  | some c => (c.getUsedConstantsAsSet).foldl (fun s m => go env m s) (seen.insert n)
run_cmd do
  let env ← getEnv
  let names := (← IO.FS.lines "/tmp/mut/names.txt")
  for s in names do
    let n := s.toName
    let r := go env n {}
    IO.println s!"DEP {n} {" ".intercalate (r.toList.map toString)}"
'''


def manifest_theorems():
    m = json.load(open("/verif/MANIFEST.json"))
    return sorted({t for c in m["claims"] for t in c["theorems"]})


def deps():
    names = manifest_theorems()
    os.makedirs("/tmp/mut", exist_ok=True)
    open("/tmp/mut/names.txt", "w").write("\n".join(names) + "\n")
    open("/tmp/mut/deps.lean", "w").write(LEAN)
    out = subprocess.run(["lake", "env", "lean", "/tmp/mut/deps.lean"], cwd=SRC, capture_output=True, text=True).stdout
    d = {}
    for l in out.splitlines():
        if l.startswith("DEP "):
            w = l.split()
            d[w[1]] = set(w[2:])
    assert d, out[:2000]
    return d


def modules(claims):
    """Modules that hold the theorems of the claims."""
    cl = {c["property"]: c["theorems"] for c in json.load(open("/verif/MANIFEST.json"))["claims"]}
    names = {t.split(".")[-1] for c in claims for t in cl.get(c, [])}
    res = set()
    for root, _, fs in os.walk(f"{SRC}/Verif"):
        for f in fs:
            text = open(os.path.join(root, f)).read()
            if any(re.search(r"\btheorem (?:[\w.]+\.)?" + re.escape(n) + r"\b", text) for n in names):
                res.add(os.path.relpath(os.path.join(root, f), SRC)[:-5].replace("/", "."))
    return sorted(res)


def decl_at(path, line):
    name = "?"
    for k, l in enumerate(open(path), 1):
        if k > line:
            break
        m = re.match(r"(?:noncomputable |private |protected |@\[[^\]]*\] ?)*(def|theorem|lemma|abbrev|structure|inductive|instance|example)\b ?([^\s:({\[]*)", l)
        if m:
            name = "Hydrax." + m.group(2) if m.group(1) != "example" else f"example({os.path.basename(path)}:{k})"
    return name


DECL = re.compile(r"(?:noncomputable |private |protected |@\[[^\]]*\] ?)*(def|theorem|lemma|abbrev|structure|inductive|instance|example)\b")


def give_up(path, line):
    """Replace the proof of the theorem around `line` by sorry."""
    ls = open(path).read().split("\n")
    a = line - 1
    while a >= 0 and not DECL.match(ls[a]):
        a -= 1
    if a < 0 or not re.search(r"\b(theorem|example|lemma)\b", ls[a]):
        return
    b = a + 1
    while b < len(ls) and not re.match(r"(/--|/-!|end\b|section\b|set_option|variable|namespace|open\b|omit|include|@\[)", ls[b]) and not DECL.match(ls[b]):
        b += 1
    text = "\n".join(ls[a:b])
    depth = 0
    cut = None
    for k, ch in enumerate(text):
        if ch in "([{⟨":
            depth += 1
        elif ch in ")]}⟩":
            depth -= 1
        elif depth == 0 and text.startswith(":=", k):
            cut = k
            break
        elif depth == 0 and text.startswith("\n  | ", k):
            cut = k
            break
    if cut is None:
        return
    new = text[:cut] + " := by sorry"
    pad = text.count("\n") - new.count("\n")
    open(path, "w").write("\n".join(ls[:a]) + "\n" + new + "\n" * (pad + 1) + "\n".join(ls[b:]))


def restore():
    subprocess.run(["rm", "-rf", MUT])
    os.makedirs("/tmp/mut", exist_ok=True)
    subprocess.run(["cp", "-a", SRC, MUT], check=True)


def main():
    muts = json.load(open(sys.argv[1]))
    os.makedirs("/tmp/mut", exist_ok=True)
    subprocess.run(["rm", "-rf", SRC])
    subprocess.run(["cp", "-a", LIVE, SRC], check=True)
    D = deps()
    restore()
    out = open(sys.argv[2], "a")
    for m in muts:
        path = f"{MUT}/Verif/{m['file']}"
        orig = open(path).read()
        n = orig.count(m["old"])
        if n != 1:
            print("BAD MUTANT", n, m["file"], m["old"][:60])
            continue
        open(path, "w").write(orig.replace(m["old"], m["new"]))
        bad, ok, scope = [], True, modules(m["claims"])
        for _ in range(8):
            r = subprocess.run(["lake", "build"] + scope, cwd=MUT, capture_output=True, text=True)
            if r.returncode == 0 and ok and scope:
                scope = []
                r = subprocess.run(["lake", "build"], cwd=MUT, capture_output=True, text=True)
            ok = ok and r.returncode == 0
            errs = {}
            for f, l in re.findall(r"error: (Verif/[\w/]+\.lean):(\d+):\d+", r.stdout + r.stderr):
                errs.setdefault(decl_at(f"{MUT}/{f}", int(l)), (f, int(l)))
            new = [d for d in errs if d not in bad]
            bad += new
            if not new:
                break
            # give up the failed proofs in the scratch copy and go on with the modules behind them
            byfile = collections.defaultdict(list)
            for d in new:
                byfile[errs[d][0]].append(errs[d][1])
            for f, ls in byfile.items():
                for l in sorted(ls, reverse=True):
                    give_up(f"{MUT}/{f}", l)
        hit = sorted(t for t, s in D.items() if s & set(bad))
        rec = dict(m, ok=ok, failed_decls=bad, failed_theorems=hit)
        cl = {c["property"]: c["theorems"] for c in json.load(open("/verif/MANIFEST.json"))["claims"]}
        rec["claim_hit"] = {c: sorted(set(cl.get(c, [])) & set(hit)) for c in m["claims"]}
        out.write(json.dumps(rec) + "\n")
        out.flush()
        print("SURVIVED" if ok else "killed", m["def"], "|", m["edit"], "|", bad[:4], "|", {k: len(v) for k, v in rec["claim_hit"].items()}, flush=True)
        # restore compiled files
        restore()


main()
