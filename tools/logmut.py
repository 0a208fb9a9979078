"""Append mutation results (output of mutate.py) to seeded/LOG.jsonl.

usage: logmut.py RESULTS.jsonl [TIGHTENED.json]

TIGHTENED.json maps the text of an edit to {"tightened": [theorem names], "note": text}.
A theorem counts as failed when its own proof, or the proof of a lemma it depends on, no longer
checks after the edit.
"""
import json
import sys
from pathlib import Path

ROOT = Path(__file__).resolve().parent.parent


def main():
    results = [json.loads(l) for l in open(sys.argv[1])]
    tight = json.load(open(sys.argv[2])) if len(sys.argv) > 2 else {}
    with open(ROOT / "seeded" / "LOG.jsonl", "a") as out:
        for r in results:
            t = tight.get(r["edit"], {})
            claim_failed = sorted({x for v in r["claim_hit"].values() for x in v})
            rec = {
                "definition": f'{r["file"]}: {r["def"]}',
                "edit": r["edit"],
                "old": r["old"],
                "new": r["new"],
                "breaks_claim": r["claims"],
                "caught": bool(claim_failed),
                "theorems_failed_for_claim": claim_failed,
                "theorems_failed": r["failed_theorems"],
                "failed_declarations": r["failed_decls"],
                "theorems_tightened": t.get("tightened", []),
            }
            if "note" in t:
                rec["note"] = t["note"]
            out.write(json.dumps(rec, ensure_ascii=False) + "\n")


if __name__ == "__main__":
    main()
