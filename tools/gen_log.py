#!/usr/bin/env python3
"""Writes seeded/LOG.jsonl from the result files of tools/mutate.py.

usage: gen_log.py RESULTS ...    later files win for the same wrong program, except that a run in which it survived is always kept
"""
import json, os, re, sys
ROOT = os.path.dirname(os.path.dirname(os.path.abspath(__file__)))
sys.path.insert(0, ROOT + "/seeded")
import seeds as sm
NOTES = json.load(open(ROOT + "/seeded/survivors.json")) if os.path.exists(ROOT + "/seeded/survivors.json") else {}
titles = {}
for l in open(ROOT + "/properties.jsonl"):
    x = json.loads(l); titles[x["id"]] = x["title"]
hand = {s["name"]: s for s in sm.S}

def enclosing(path, line):
    name = "?"
    for l in open(f"{ROOT}/lean/Verif/{path}").read().split("\n")[:line]:
        m = re.match(r"(?:@\[[^\]]*\] )?(?:def|instance|abbrev) (\S+)", l)
        if m: name = m.group(1)
    return os.path.basename(path)[:-5] + "." + name

last, kept = {}, []
for f in sys.argv[1:]:
    for l in open(f):
        r = json.loads(l)
        if "old" in r and r["old"].split(" --")[0].rstrip() == r["new"]: continue  # only a comment left out
        if r["name"] in last and last[r["name"]]["result"] == "survived" and r["result"] != "survived": kept.append(last[r["name"]])
        last[r["name"]] = r

def entry(r):
    by = r.get("by") or []
    ids = sorted({b.split("_")[0] for b in by})
    if r["name"] in hand:
        s = hand[r["name"]]
        e = dict(name=r["name"], definition=s["definition"], edit=s["edit"], claim=s["claim"], properties=s["claims"], tightened=s["tightened"])
    else:
        e = dict(name=r["name"], definition=enclosing(r["file"], r["line"]), edit=f'{r["old"]}  ->  {r["new"] or "(left out)"}',
                 claim="; ".join(titles[i] for i in ids[:3]) if ids else "", properties=ids, tightened=[])
    e["outcome"] = {"killed": "rejected", "survived": "survived", "invalid": "not a program (does not compile)", "crash": "evaluation did not finish"}[r["result"]]
    e["failed"] = by
    e["method"] = "executable forms of the theorems evaluated on samples; an executable form that is false refutes its theorem (Verif/Oracle/Sound*.lean)"
    n = NOTES.get(r["name"])
    if n: e["note"] = n
    return e

with open(ROOT + "/seeded/LOG.jsonl", "w") as o:
    for r in kept + list(last.values()):
        if r["result"] == "invalid" and r["name"] not in hand: continue
        o.write(json.dumps(entry(r), ensure_ascii=False) + "\n")
missed = [(n, [c for c in hand[n]["claims"] if c not in {b.split("_")[0] for b in r.get("by") or []}]) for n, r in last.items() if n in hand and r["result"] == "killed"]
print("rejected, but not by the intended theorem:", [m for m in missed if m[1]])
print("not rejected:", [n for n, r in last.items() if r["result"] in ("survived", "crash")])
