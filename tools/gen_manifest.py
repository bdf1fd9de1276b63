"""Write MANIFEST.json: theorems C<nn>_* found in lean/Verif/Props, with notes from notes.json."""
import glob
import json
import os
import re

ROOT = os.path.join(os.path.dirname(os.path.abspath(__file__)), "..")
theorems = {}
for path in sorted(glob.glob(os.path.join(ROOT, "lean/Verif/Props/*.lean"))):
    ns = []
    for line in open(path):
        m = re.match(r"namespace (\S+)", line)
        if m:
            ns.append(m.group(1))
        m = re.match(r"end (\S+)", line)
        if m and ns and ns[-1] == m.group(1):
            ns.pop()
        m = re.match(r"theorem ((C\d+)_\w+)", line)
        if m:
            theorems.setdefault(m.group(2), []).append(".".join(ns + [m.group(1)]))
notes = json.load(open(os.path.join(ROOT, "tools/notes.json")))
claims = []
for line in open(os.path.join(ROOT, "properties.jsonl")):
    pid = json.loads(line)["id"]
    if pid not in theorems:
        if pid in notes:
            claims.append({"property": pid, "status": "not_applicable", "theorems": [],
                           "note": notes[pid]})
        continue
    ts = theorems[pid]
    status = "partial" if any(t.endswith("_partial") for t in ts) else "proved"
    claims.append({"property": pid, "status": status, "theorems": ts, "note": notes.get(pid, "")})
with open(os.path.join(ROOT, "MANIFEST.json"), "w") as f:
    json.dump({"claims": claims}, f, indent=1)
    f.write("\n")
print({s: sum(c["status"] == s for c in claims) for s in ("proved", "partial", "not_applicable")})
