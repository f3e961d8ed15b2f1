# Generates MANIFEST.json: every theorem named C<nn>_... under lean/Verif/Props belongs to property C<nn>.
import json, re, glob, os
root = os.path.join(os.path.dirname(os.path.abspath(__file__)), "..")
notes = json.load(open(os.path.join(root, "tools", "notes.json")))
props = [json.loads(l)["id"] for l in open(os.path.join(root, "properties.jsonl"))]
th = {p: [] for p in props}
extra = {}
for f in sorted(glob.glob(os.path.join(root, "lean/Verif/Props/*.lean"))):
    ns = []
    for line in open(f):
        m = re.match(r"namespace (\S+)", line)
        if m: ns.append(m.group(1))
        m = re.match(r"end (\S+)", line)
        if m and ns and ns[-1] == m.group(1): ns.pop()
        m = re.match(r"(?:private )?theorem (C\d\d+)_(\S+)", line)
        if m: th[m.group(1)].append(".".join(ns + [m.group(1) + "_" + m.group(2)]))
claims = []
for p in props:
    if not th[p]: continue
    n = notes.get(p, {})
    claims.append({"property": p, "status": n.get("status", "proved"), "theorems": th[p], "note": n.get("note", "")})
json.dump({"claims": claims}, open(os.path.join(root, "MANIFEST.json"), "w"), indent=1, ensure_ascii=False)
print(len(claims), "of", len(props))
