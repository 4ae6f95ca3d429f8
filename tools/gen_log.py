#!/usr/bin/env python3
"""Writes seeded/LOG.jsonl from the results of the mutation runs: gen_log.py results.jsonl tightened.json [survivors.jsonl ...]

results.jsonl: the runs against the final theorems; survivors: earlier runs in which no theorem failed; tightened.json: for the ids of
these, the theorems that were added or strengthened afterwards."""
import json, sys
res = [json.loads(l) for l in open(sys.argv[1])]
tight = json.load(open(sys.argv[2]))
equivalent = tight.pop("equivalent", {})
early = [json.loads(l) for fn in sys.argv[3:] for l in open(fn)]
short = lambda n: n.split(".")[-1]
def entry(r, failed, tightened, note=None):
    e = {"definition": f"{r['d']} (Verif/{r['file']}.lean)", "edit": f"{r['old'] or '(nothing)'} -> {r['new'] or '(nothing)'}",
         "claim": r["claim"], "failed": failed, "tightened": tightened}
    if note: e["note"] = note
    return e
out = []
for r in early:
    if r["id"] in tight:
        out.append(entry(r, [], tight[r["id"]], "not noticed at first; theorems tightened"))
for r in res:
    failed = sorted({short(t) for t in r["failed"] + r["broken"]} | {short(n) for n in r.get("others", [])})
    note = None
    if r["id"] in equivalent: note = "no observable difference: " + equivalent[r["id"]]
    elif r["id"] in tight: note = "after tightening"
    if not failed and not note:
        print("UNRESOLVED", r["id"], r["d"], r["claim"]); continue
    out.append(entry(r, failed, [], note))
with open("/verif/seeded/LOG.jsonl", "w") as f:
    for e in out: f.write(json.dumps(e, ensure_ascii=False) + "\n")
print(len(out), "entries;", sum(1 for e in out if e["tightened"]), "unnoticed at first")
