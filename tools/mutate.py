#!/usr/bin/env python3
"""Build the model with one seeded fault in a scratch copy and report what fails.

usage: mutate.py FAULTS.json [OUT.jsonl]     (FAULTS: list of {id, file, old, new, claim, props})

The scratch copy is $MUT_DST, made from $MUT_BASE (default: /verif/lean).  Lemmas whose proofs fail are given up (their proof is
replaced) in the scratch copy and the build is repeated, so that every other theorem is
really checked against the edited model; theorems that rest on a lemma given up count as failed.
"""
import json, os, re, subprocess, sys

SRC = os.environ.get("MUT_BASE", "/verif/lean/")
DST = os.environ.get("MUT_DST", "/tmp/mut/lean/")
START = re.compile(r"^(?:@\[[^\]]*\]\s*)?(?:private |protected |noncomputable )*"
                   r"(theorem|lemma|def|abbrev|example|instance|structure|inductive)\b\s*(\S*)")
TOP = re.compile(r"^(/--|/-!|theorem|lemma|def|abbrev|example|instance|structure|inductive|"
                 r"noncomputable|private|protected|@\[|end\b|namespace|section|variable|open|"
                 r"set_option|import|deriving)")

def blocks(path):
    ls = open(path).read().split("\n")
    starts = [i for i, l in enumerate(ls) if START.match(l)]
    out = []
    for i in starts:
        j = i + 1
        while j < len(ls) and not TOP.match(ls[j]):
            j += 1
        m = START.match(ls[i])
        out.append((i, j, m.group(1), m.group(2) or ""))
    return ls, out

def sync():
    os.makedirs(DST, exist_ok=True)
    subprocess.run(["rsync", "-a", "--delete", SRC, DST], check=True) if os.path.exists("/usr/bin/rsync") else \
        subprocess.run(f"rm -rf {DST} && cp -a {SRC} {DST}", shell=True, check=True)

def split_stmt(text):
    """index where the proof starts"""
    def find(pats):
        depth = 0
        for i, c in enumerate(text):
            if c in "([{⟨": depth += 1
            elif c in ")]}⟩": depth -= 1
            elif depth == 0 and any(text.startswith(p, i) for p in pats): return i
    by = find([":= by", ":=\n", "\n  | ", " where\n"])
    return by if by is not None else find([":="])

def build():
    try:
        r = subprocess.run(["lake", "build"], cwd=DST, capture_output=True, text=True, timeout=1500)
        return r.returncode, r.stdout + r.stderr
    except subprocess.TimeoutExpired as e:
        subprocess.run("pkill -f /tmp/mut/lean", shell=True)
        return 99, "TIMEOUT " + str((e.stdout or b"")[-2000:])

def claims():
    names = []
    for root, _, fs in os.walk(DST + "Verif/Props"):
        for f in fs:
            if f.endswith(".lean"):
                names += re.findall(r"^theorem (C\d+_\S+)", open(os.path.join(root, f)).read(), re.M)
    return sorted(set(names))

def unproved():
    """the claims that rest on a lemma given up, by their axioms"""
    t = DST + "Axioms.lean"
    with open(t, "w") as fh:
        fh.write("import Verif\n" + "".join(f"#print axioms WindMult.{n}\n" for n in claims()))
    r = subprocess.run(["lake", "env", "lean", t], cwd=DST, capture_output=True, text=True)
    return sorted(set(re.findall(r"'WindMult\.(C\d+_\S+?)' depends on axioms: \[[^\]]*sorryAx", r.stdout)))

def run(m):
    sync()
    p = DST + m["file"]
    s = open(p).read()
    if s.count(m["old"]) != m.get("count", 1):
        return dict(m, result="old text found %d times" % s.count(m["old"]))
    open(p, "w").write(s.replace(m["old"], m["new"]))
    direct, examples, invalid = [], [], []
    for rnd in range(12):
        rc, out = build()
        if rc == 0: break
        if rc == 99: return dict(m, result="timeout", direct=direct, tail=out[-500:])
        errs = {}
        for f, l in re.findall(r"^error: (Verif/\S+?\.lean):(\d+):\d+:", out, re.M):
            errs.setdefault(f, set()).add(int(l) - 1)
        if not errs: return dict(m, result="unparsed", tail=out[-1500:])
        for f, lines in errs.items():
            ls, bs = blocks(DST + f)
            hit = set()
            for l in lines:
                c = [b for b in bs if b[0] <= l < b[1]] or [b for b in bs if b[0] <= l][-1:]
                if c: hit.add(c[0])
                else: invalid.append(f"{f}:{l+1}")
            for (i, j, k, n) in sorted(hit, reverse=True):
                txt = "\n".join(ls[i:j])
                if k == "example":
                    examples.append(f)
                    a = i - 1
                    # drop its doc comment
                    if a >= 0 and ls[a].rstrip().endswith("-/"):
                        while a >= 0 and not ls[a].startswith("/--"): a -= 1
                        i = a
                    ls[i:j] = [""]
                elif k in ("theorem", "lemma"):
                    if n in direct:       # second failure: statement does not elaborate
                        invalid.append("statement of " + n)
                    direct.append(n)
                    q = split_stmt(txt)
                    ls[i:j] = (txt[:q] + ":= by sorry\n").split("\n")
                else:
                    invalid.append(f"{k} {n} in {f}")
            open(DST + f, "w").write("\n".join(ls))
        if invalid:
            return dict(m, result="invalid", invalid=invalid, direct=direct, tail=out[-1500:])
    cs = unproved() if direct else []
    dc = sorted(n for n in direct if re.match(r"C\d+_", n))
    props = m.get("props", [])
    missed = [p for p in props if not any(c.startswith(p + "_") for c in cs)]
    return dict(m, result="built", direct=direct, direct_claims=dc, claims=cs, examples=sorted(set(examples)), missed=missed, rounds=rnd)

if __name__ == "__main__":
    ms = json.load(open(sys.argv[1]))
    out = sys.argv[2] if len(sys.argv) > 2 else "/tmp/mut/out.jsonl"
    done = set()
    if os.path.exists(out):
        done = {json.loads(l)["id"] for l in open(out)}
    for m in ms:
        if m["id"] in done: continue
        r = run(m)
        with open(out, "a") as fh: fh.write(json.dumps(r, ensure_ascii=False) + "\n")
        print(r["id"], r["result"], "MISSED " + str(r["missed"]) if r.get("missed") else "", "direct:", len(r.get("direct", [])), r.get("claims"), r.get("invalid", ""), flush=True)
