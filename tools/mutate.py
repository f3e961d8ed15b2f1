#!/usr/bin/env python3
"""Tests the theorems against wrong programs by evaluation. For every wrong program the models, the specifications and the executable forms
of the theorems (lean/Verif/Oracle; for the UAX #29 automaton only that of C77, since the others use its laws) are rebuilt in a scratch directory, and the executable forms are evaluated on samples.
`Verif/Oracle/Sound*.lean` prove that an executable form can only be `false` if its theorem is false. So
a program for which one of them is `false` is rejected by that theorem. A program that survives is either equivalent as far
as the claims go, or shows that a theorem is too weak, or that the samples are.

usage: mutate.py hand RESULTS [name ...]     the seeds of seeded/seeds.py
       mutate.py auto RESULTS [file ...]     mechanical mutants of lean/Verif/Model/<file>.lean
RESULTS is a JSON-lines file; what is already in it is skipped. MUT_WORKERS: number of parallel scratch directories (default 2); MUT_DIR: their prefix.
"""
import json, os, re, subprocess, sys, shutil, hashlib
from concurrent.futures import ThreadPoolExecutor
from queue import Queue
ROOT = os.path.dirname(os.path.dirname(os.path.abspath(__file__)))
SRC = ROOT + "/lean"
WORK = int(os.environ.get("MUT_WORKERS", "2"))
FILES = ["Position", "GapBuffer", "Cursor", "Buffer", "Str", "Search", "LineIterator", "Token", "File", "Workspace", "Machine", "Shared", "Fields", "Uninit", "MachineRest", "Uax29", "Errors", "Cost", "Session", "Editor", "Unwind", "Heap", "Caller", "TokenUnwind", "Reading", "PathStr", "Guarded", "BufferReading", "Debug", "Convert"]

def setup(i):
    d = os.environ.get("MUT_DIR", "/tmp/mut") + f"{i}/lean"
    if not os.path.exists(d):
        os.makedirs(os.path.dirname(d), exist_ok=True)
        subprocess.run(["cp", "-a", SRC, d], check=True)
    for sub in ("Model", "Spec", "Oracle", "Proofs", "."):
        for f in os.listdir(f"{SRC}/Verif/{sub}"):
            a, b = f"{SRC}/Verif/{sub}/{f}", f"{d}/Verif/{sub}/{f}"
            if f.endswith(".lean") and (not os.path.exists(b) or open(a).read() != open(b).read()): shutil.copy(a, b)
    open(d + "/Rep.lean", "w").write("import Verif.Oracle.Samples\nopen Scribe.Oracle.Samples\n#eval (report.filter (!·.2)).map (·.1)\n")
    open(d + "/RepG.lean", "w").write("import Verif.Oracle.Grapheme\nopen Scribe.Oracle.Grapheme\n#eval (report.filter (!·.2)).map (·.1)\n")
    subprocess.run(["lake", "build", "Verif.Oracle.Samples", "Verif.Oracle.Grapheme"], cwd=d, check=True, capture_output=True)
    return d

def evaluate(d, edits):
    """edits: {file: new text}"""
    target, rep = ("Verif.Oracle.Grapheme", "RepG.lean") if "Model/Uax29.lean" in edits else ("Verif.Oracle.Samples", "Rep.lean")
    try:
        for f, t in edits.items(): open(f"{d}/Verif/{f}", "w").write(t)
        try: p = subprocess.run(["timeout", "600", "lake", "build", target], cwd=d, capture_output=True, text=True)
        except UnicodeDecodeError: return dict(result="invalid", error="?")
        if p.returncode != 0:
            m = re.search(r"error: (.*(\n.*){0,6})", p.stdout + p.stderr)
            return dict(result="invalid", error=(m.group(1) if m else "?")[:400])
        p = subprocess.run("ulimit -v 12000000; timeout 300 lake env lean " + rep, shell=True, cwd=d, capture_output=True, text=True)
        m = re.search(r"\[(.*)\]", p.stdout, re.S)
        if p.returncode != 0 or not m: return dict(result="crash", error=(p.stdout + p.stderr)[:300])
        ks = re.findall(r'"(\w+)"', m.group(1))
        return dict(result="killed" if ks else "survived", by=ks)
    finally:
        for f in edits: shutil.copy(f"{SRC}/Verif/{f}", f"{d}/Verif/{f}")

# ---------------------------------------------------------------- mechanical mutants
SWAPS = [(r" ≤ ", " < "), (r" < ", " ≤ "), (r" ≥ ", " > "), (r" > ", " ≥ "), (r" ∧ ", " ∨ "), (r" ∨ ", " ∧ "), (r" && ", " || "), (r" \|\| ", " && "),
  (r"\btrue\b", "false"), (r"\bfalse\b", "true"), (r" \+ 1\b", ""), (r" \+ 1\b", " + 2"), (r" - 1\b", ""), (r" \+ ", " - "), (r" - ", " + "),
  (r"\.line\b", ".offset"), (r"\.offset\b", ".line"), (r"\.start\b", ".stop"), (r"\.stop\b", ".start"), (r"\bgapStart\b", "gapLength"), (r"\bgapLength\b", "gapStart"),
  (r"\.previous\b", ".next"), (r"\.next\b", ".previous"), (r"\bnone\b", "some 0"), (r"\b0\b", "1"), (r"\b1\b", "0"), (r" = ", " ≠ "), (r" ≠ ", " = "),
  (r"\.isSome\b", ".isNone"), (r"\.isNone\b", ".isSome"), (r"blen (\w+)", r"\1.length"), (r"\.head\?", ".getLast?"), (r"\.getLast\?", ".head?"),
  (r"\.reverse\b", ""), (r" \+\+ ([\w.()]+)", ""), (r"([\w.]+) \+\+ ", ""), (r"\bmin\b", "max"), (r"\bmax\b", "min"), (r"\.tail\b", ""),
  (r"\.error \.(\w+)", None), (r"subU", "(fun (a b : Nat) => (.ok (a - b) : R Nat))")]

def code_lines(text):
    """(number, line) of lines inside definitions"""
    out = []; incomment = False; indef = False
    for n, l in enumerate(text.split("\n")):
        if l.startswith("/-"): incomment = True
        if incomment:
            if "-/" in l: incomment = False
            continue
        if re.match(r"(def|instance|@\[.*\] def|abbrev)\b", l): indef = True
        elif re.match(r"(structure|inductive|theorem|end|namespace|section|variable|open|import|deriving|mutual)\b", l): indef = False
        if indef: out.append((n, l))
    return out

def split_head(l):
    """where the body of a definition starts on this line"""
    if re.match(r"(def|instance|abbrev|@\[)", l):
        i = l.find(":=")
        return len(l) if i < 0 else i + 2
    return 0

def auto(files):
    out = []
    for f in files:
        path = f"Model/{f}.lean"
        text = open(f"{SRC}/Verif/{path}").read()
        lines = text.split("\n")
        seen = set()
        def add(n, new, what):
            if new is not None and new == lines[n].split(" --")[0].rstrip() or (n, new) in seen: return
            seen.add((n, new))
            t = "\n".join(lines[:n] + ([new] if new is not None else []) + lines[n+1:])
            name = f"{f}:{hashlib.md5((lines[n] + '=>' + str(new)).encode()).hexdigest()[:8]}:{n+1}"
            out.append(dict(name=name, file=path, line=n + 1, old=lines[n].strip(), new=(new or "").strip(), edits={path: t}))
        for n, l in code_lines(text):
            h = split_head(l)
            head, body = l[:h], l[h:]
            for pat, rep in SWAPS:
                if rep is None: continue
                for m in re.finditer(pat, body):
                    if rep == " ≠ " and not re.search(r"\b(if|decide|while|filter)\b", body[:m.start()]): continue
                    add(n, head + body[:m.start()] + m.expand(rep) + body[m.end():], pat)
            m = re.search(r"\bif (?!let\b|h :|← )(.*?) then ", body) or re.search(r"\bif (?!let\b|h :|← )(.*?) then$", body)
            if m:
                add(n, head + body[:m.start(1)] + "¬ (" + m.group(1) + ")" + body[m.end(1):], "negate")
                add(n, head + body[:m.start(1)] + "True" + body[m.end(1):], "true")
                add(n, head + body[:m.start(1)] + "False" + body[m.end(1):], "false")
            # leave out a field update
            for m in re.finditer(r"with ([^{}]*?)( \}|\})", body):
                fs = m.group(1).split(", ")
                if len(fs) > 1:
                    for k in range(len(fs)):
                        add(n, head + body[:m.start(1)] + ", ".join(fs[:k] + fs[k+1:]) + body[m.end(1):], "field")
                elif ":=" in fs[0]:
                    b = body.rfind("{", 0, m.start())
                    v = body[b+1:m.start()].strip()
                    if v: add(n, head + body[:b] + v + body[m.end():], "update")
            # leave out a statement
            if re.match(r"\s+let (\w+) := \{? ?\1 with", l) or re.match(r"\s+let (\w+) (:=|←) .*\b\1\b", l): add(n, None, "statement") if False else out.append(dict(
                name=f"{f}:{hashlib.md5((lines[n] + '=>DEL').encode()).hexdigest()[:8]}:{n+1}", file=path, line=n + 1, old=lines[n].strip(), new="", edits={path: "\n".join(lines[:n] + lines[n+1:])}))
            # arms of the automaton: another state, or left out
            if f == "Uax29" and re.match(r"  \| .*=> (some )?\.?\w+ *(--.*)?$", l):
                pre, post = l.split("=>")
                some = "some " in post or "none" in post
                for st in ("any", "cr", "ctl", "hL", "hV", "hT", "ri1", "ri2", "pict", "pictZ", "cons", "consL", "prepend"):
                    add(n, pre + "=> " + ("some " if some else "") + "." + st, "state")
                if some: add(n, pre + "=> none", "state")
                out.append(dict(name=f"{f}:{hashlib.md5((lines[n] + '=>DEL').encode()).hexdigest()[:8]}:{n+1}", file=path, line=n + 1, old=lines[n].strip(), new="", edits={path: "\n".join(lines[:n] + lines[n+1:])}))
            # swap two neighbouring arguments
            for m in re.finditer(r"(?<=[\w)]) (\w[\w.]*|\([^()]*\)) (\w[\w.]*|\([^()]*\))(?=$|[ ),⟩\]}])", body):
                if m.group(1) in ("if", "then", "else", "let", "with", "match", "return", "do", "fun", "some", "S", "A", "M") or m.group(2) in ("then", "else", "with", "do", "fun"): continue
                add(n, head + body[:m.start()] + f" {m.group(2)} {m.group(1)}" + body[m.end():], "args")
            for m in re.finditer(r"⟨([\w.+ ]+), ([\w.+ ]+)⟩", body):
                add(n, head + body[:m.start()] + f"⟨{m.group(2)}, {m.group(1)}⟩" + body[m.end():], "pair")
    return out

def hand(names):
    sys.path.insert(0, ROOT + "/seeded")
    import seeds as sm
    out = []
    for sd in sm.S:
        if names and sd["name"] not in names: continue
        edits = {}
        for f, old, new in sd["edits"]:
            s = edits.get(f) or open(f"{SRC}/Verif/{f}").read()
            assert s.count(old) == 1, (sd["name"], s.count(old), old)
            edits[f] = s.replace(old, new)
        out.append(dict(name=sd["name"], claims=sd["claims"], edits=edits))
    return out

def main():
    mode, res = sys.argv[1], sys.argv[2]
    ms = hand(sys.argv[3:]) if mode == "hand" else auto(sys.argv[3:] or FILES)
    if mode == "count":
        pass
    done = {json.loads(l)["name"] for l in open(res)} if os.path.exists(res) else set()
    ms = [m for m in ms if m["name"] not in done]
    print(len(ms), "to do", flush=True)
    if os.environ.get("MUT_LIST"):
        for m in ms: print(m["name"], "|", m.get("old"), "=>", m.get("new"))
        return
    q = Queue()
    for i in range(WORK): q.put(setup(i))
    fh = open(res, "a")
    def job(m):
        d = q.get()
        try: r = evaluate(d, m["edits"])
        except Exception as e: r = dict(result="error", error=str(e))
        finally: q.put(d)
        fh.write(json.dumps({**{k: v for k, v in m.items() if k != "edits"}, **r}, ensure_ascii=False) + "\n"); fh.flush()
    with ThreadPoolExecutor(WORK) as ex: list(ex.map(job, ms))

if __name__ == "__main__": main()
