#!/usr/bin/env python3
"""Append results of mutation runs (JSON lines) to seeded/LOG.jsonl. Usage: mut_log.py results.jsonl ...

An edit counts as caught only if a named declaration failed. A build that ended otherwise (killed for memory, or stopped by an
example alone) is logged as inconclusive. A new result for an edit logged as inconclusive, or as caught with nothing failed,
replaces that line."""
import json, os, sys

log = os.path.join(os.path.dirname(os.path.abspath(__file__)), "..", "seeded", "LOG.jsonl")
rows = [json.loads(l) for l in open(log, encoding="utf-8")] if os.path.exists(log) else []
at = {(r["definition"], r["edit"], r["new"]): i for i, r in enumerate(rows)}
added = replaced = 0
for name in sys.argv[1:]:
    for l in open(name, encoding="utf-8"):
        r = json.loads(l)
        if r["result"] == "BADMATCH" or r.get("defs"):
            continue  # the edit did not apply, or the edited program is not well-formed
        failed = [x.replace("OnePass.", "") for x in r["failed"]]
        named = [x for x in failed if not x.startswith("example at")]
        survived = r["result"] == "SURVIVED"
        row = {
            "definition": r["def"], "file": "lean/Verif/" + r["file"], "edit": r["edit"], "old": r["old"], "new": r["new"],
            "claim": r["claim"], "failed": failed, "properties_resting_on_failed": r["reach"], "survived": survived,
            "inconclusive": not survived and not named, "tightened": r.get("tightened", [])}
        if r.get("examples_removed"):
            row["note"] = "built without the examples, since with them no named declaration failed first"
        i = at.get((r["def"], r["edit"], r["new"]))
        if i is None:
            at[(r["def"], r["edit"], r["new"])] = len(rows)
            rows.append(row)
            added += 1
        elif rows[i].get("inconclusive") or not (rows[i]["survived"] or rows[i]["failed"]):
            rows[i] = row
            replaced += 1
for r in rows:
    if "inconclusive" not in r:
        r["inconclusive"] = not r["survived"] and all(x.startswith("example at") for x in r["failed"])
with open(log, "w", encoding="utf-8") as f:
    for r in rows:
        f.write(json.dumps(r, ensure_ascii=False) + "\n")
print(added, "added", replaced, "replaced", sum(r["inconclusive"] for r in rows), "inconclusive")
