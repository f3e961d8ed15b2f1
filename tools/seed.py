#!/usr/bin/env python3
"""Seeded-bug testing. Copies lean/ to a scratch directory, applies one edit of the model, and rebuilds. Every theorem whose proof
breaks is replaced by `sorry` (and every `example` that breaks removed) until everything builds again; a property theorem counts as failed
if it then depends on `sorryAx`.

usage: seed.py [--log] [name ...]      (the seeds are in seeded/seeds.py; --log appends to seeded/LOG.jsonl)
"""
import json, os, re, subprocess, sys, shutil, glob
ROOT = os.path.join(os.path.dirname(os.path.abspath(__file__)), "..")
SRC = os.environ.get("SEED_SRC", ROOT + "/lean")   # what to copy
SCR = "/tmp/seed/lean"
TOP = re.compile(r"^(@\[|/--|/-!|theorem |lemma |example|def |abbrev |structure |inductive |instance |end\b|namespace |section|variable|open |private |protected |noncomputable |set_option |import |attribute |mutual)")

def fresh():
    os.makedirs("/tmp/seed", exist_ok=True)
    subprocess.run(["rsync", "-a", "--delete", SRC + "/", SCR + "/"], check=True) if shutil.which("rsync") else (
        shutil.rmtree(SCR, ignore_errors=True), subprocess.run(["cp", "-a", SRC, SCR], check=True))

def decl_range(lines, n):
    """the declaration containing line n (0-based): start (keyword line), end (exclusive)"""
    s = n
    while s >= 0 and not re.match(r"(theorem |lemma |example|def |instance |private theorem |@\[.*theorem|noncomputable def |abbrev |structure )", lines[s]): s -= 1
    e = s + 1
    while e < len(lines) and not TOP.match(lines[e]): e += 1
    return s, e

def cut(text):
    """the statement of a theorem, up to the proof"""
    depth = 0; i = 0; start = 0
    while i < len(text):
        ch = text[i]
        if ch == '"':
            i += 1
            while text[i] != '"': i += 2 if text[i] == '\\' else 1
        elif ch in "([{⟨": depth += 1
        elif ch in ")]}⟩": depth -= 1
        elif ch == "\n": start = i + 1
        elif depth == 0 and text.startswith(":=", i):
            line = text[start:i].strip()
            if not line.startswith("let "): return text[:i]
        elif depth == 0 and text.startswith("  | ", i) and start == i: return text[:i]
        i += 1
    return text

def build():
    p = subprocess.run(["lake", "build"], cwd=SCR, capture_output=True, text=True)
    return p.returncode == 0, p.stdout + p.stderr

def run(seed):
    fresh()
    for f, old, new in seed["edits"]:
        path = f"{SCR}/Verif/{f}"
        s = open(path).read()
        assert s.count(old) == 1, (seed["name"], s.count(old), old)
        open(path, "w").write(s.replace(old, new))
    broken = []; rounds = 0; examples = 0
    while True:
        ok, out = build()
        if ok: break
        rounds += 1
        if rounds > 60: return dict(error="too many rounds", broken=broken)
        todo = {}
        for m in re.finditer(r"error: (Verif/\S+\.lean):(\d+):\d+:", out):
            todo.setdefault(m.group(1), set()).add(int(m.group(2)) - 1)
        if not todo: return dict(error=out[-2000:], broken=broken)
        for f, ns in todo.items():
            lines = open(f"{SCR}/{f}").read().split("\n")
            done = set()
            for n in sorted(ns, reverse=True):
                s, e = decl_range(lines, n)
                if s in done: continue
                done.add(s)
                head = lines[s]
                if f.startswith("Verif/Model") or f.startswith("Verif/Spec"):
                    return dict(error=f"model does not compile: {f}:{n+1}\n" + out[:1500], broken=broken)
                text = "\n".join(lines[s:e])
                if head.startswith("example"):
                    examples += 1
                    b = s
                    while b > 0 and not lines[b-1].strip() == "" and not re.match(r"(theorem|example|end)", lines[b-1]) and lines[b-1].startswith("/--") : b -= 1
                    # keep docstring lines out as well
                    k = s - 1
                    while k >= 0 and not lines[k].startswith("/--") and not TOP.match(lines[k]): k -= 1
                    if k >= 0 and lines[k].startswith("/--"): s0 = k
                    else: s0 = s
                    lines[s0:e] = [""] * (e - s0)
                elif "theorem " in head:
                    if "sorry" in text: return dict(error=f"statement broken: {f}: {head}", broken=broken)
                    broken.append(re.search(r"theorem (\S+)", head).group(1))
                    new = cut(text).rstrip() + " := by sorry"
                    nl = new.split("\n")
                    lines[s:e] = nl + [""] * max(0, (e - s) - len(nl))
                else:
                    return dict(error=f"{f}:{n+1} {head}\n" + out[:1500], broken=broken)
            open(f"{SCR}/{f}", "w").write("\n".join(lines))
    man = json.load(open(ROOT + "/MANIFEST.json"))
    names = [t for c in man["claims"] for t in c["theorems"]]
    chk = "import Verif\n" + "\n".join(f"#print axioms {n}" for n in names) + "\n"
    open(SCR + "/Chk.lean", "w").write(chk)
    p = subprocess.run(["lake", "env", "lean", "Chk.lean"], cwd=SCR, capture_output=True, text=True)
    failed = []
    for m in re.finditer(r"'(\S+)' depends on axioms: \[([^\]]*)\]", p.stdout):
        if "sorryAx" in m.group(2): failed.append(m.group(1).split(".")[-1])
    return dict(failed=failed, broken=broken, examples=examples, rounds=rounds)

if __name__ == "__main__":
    args = [a for a in sys.argv[1:] if not a.startswith("--")]
    sys.path.insert(0, ROOT + "/seeded")
    import seeds as sm
    seeds = sm.S
    want = args
    done = set()
    if os.environ.get("SEED_RESUME") and os.path.exists(os.environ["SEED_RESUME"]):
        done = {json.loads(l)["name"] for l in open(os.environ["SEED_RESUME"])}
    for sd in seeds:
        if want and sd["name"] not in want or sd["name"] in done: continue
        r = run(sd)
        exp = sd["claims"]
        direct = [b for b in r.get("broken", []) if re.match(r"C\d\d", b)]
        missed = [c for c in exp if not any(f.startswith(c) for f in r.get("failed", []))]
        print(json.dumps(dict(name=sd["name"], missed=missed, error=r.get("error"), failed=r.get("failed"), direct=direct, lemmas=[b for b in r.get("broken", []) if b not in direct], examples=r.get("examples"))), flush=True)
        if "--log" in sys.argv and not r.get("error"):
            with open(ROOT + "/seeded/LOG.jsonl", "a") as fh:
                fh.write(json.dumps(dict(definition=sd["definition"], edit=sd["edit"], claim=sd["claim"], failed=r["failed"],
                    supporting_lemmas_failed=[b for b in r["broken"] if not re.match(r"C\d\d", b)], examples_failed=r["examples"],
                    tightened=sd.get("tightened", [])), ensure_ascii=False) + "\n")
