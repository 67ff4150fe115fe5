#!/usr/bin/env python3
"""Test the theorems against wrong programs.

usage: mutate.py MUTANTS.py WORKER NWORKERS LOG

MUTANTS.py defines M, a list of dicts {id, file, def, old, new, claim, breaks: [property ids]}.
Every mutant is applied to a scratch copy of the project (outside /verif).  A proof that fails is
replaced by `sorry` and the build repeated, until everything compiles; then `#print axioms` tells which
property theorems depend on a proof that no longer goes through.
"""
import json, os, re, runpy, shutil, subprocess, sys

mfile, worker, nworkers, log = sys.argv[1], int(sys.argv[2]), int(sys.argv[3]), sys.argv[4]
SRC = "/tmp/pristine"
DIR = "/tmp/mut_" + os.path.basename(log).split(".")[0] + f"_{worker}"
M = runpy.run_path(mfile)["M"]
claims = json.load(open("/verif/MANIFEST.json"))["claims"]
ALL = [t for c in claims for t in c["theorems"]]
DECL = re.compile(r"^(?:@\[[^\]]*\]\s*)?(?:private\s+|noncomputable\s+|protected\s+)*(theorem|lemma|example|def|instance|abbrev|structure|inductive)\b\s*([^\s:({\[]*)")


def build():
    r = subprocess.run(["lake", "build"], cwd=DIR, capture_output=True, text=True)
    out = r.stdout + r.stderr
    errs = {}
    for m in re.finditer(r"^error: (Verif/\S+?\.lean):(\d+):\d+: (.*)$", out, re.M):
        errs.setdefault(m.group(1), []).append((int(m.group(2)), m.group(3)))
    return r.returncode, errs, out


def proof_start(text):
    """Offset of the first `:=` outside brackets, or of the first `| ... =>` line."""
    depth, i, n = 0, 0, len(text)
    while i < n:
        if text.startswith("--", i):
            i = text.find("\n", i)
            if i < 0:
                return None
        ch = text[i]
        if ch in "([{⟨":
            depth += 1
        elif ch in ")]}⟩":
            depth -= 1
        elif depth == 0 and text.startswith(":=", i):
            return i
        elif depth == 0 and ch == "\n" and re.match(r"\n\s+\| [^\n]*=>", text[i:]):
            return i
        i += 1
    return None


def sorry_out(path, lines_with_errors, already):
    """Replace failing proofs; returns the names of the declarations and whether a definition failed."""
    full = f"{DIR}/{path}"
    src = open(full).read().split("\n")
    starts = [k for k, l in enumerate(src) if DECL.match(l)]
    hit, bad_def = {}, []
    for ln, msg in lines_with_errors:
        k = max((s for s in starts if s <= ln - 1), default=None)
        if k is None:
            bad_def.append(f"{path}:{ln} {msg}")
            continue
        kind, name = DECL.match(src[k]).groups()
        if kind not in ("theorem", "lemma", "example"):
            bad_def.append(f"{path}:{ln} {kind} {name}: {msg}")
            continue
        hit[k] = (kind, name)
    names = []
    for k in sorted(hit, reverse=True):
        kind, name = hit[k]
        e = k + 1
        while e < len(src) and (src[e] == "" or src[e][0] in " \t"):
            e += 1
        body = "\n".join(src[k:e])
        key = (path, src[k])
        p = proof_start(body)
        if key in already or p is None:
            # the statement itself does not elaborate any more: drop the declaration
            j = k
            # attached doc string and modifiers
            while j > 0 and src[j - 1].startswith(("omit ", "open ", "set_option ")):
                j -= 1
            if j > 0 and src[j - 1].rstrip().endswith("-/"):
                j -= 1
                while not src[j].lstrip().startswith("/-"):
                    j -= 1
            src[j:e] = [""]
        else:
            already.add(key)
            src[k:e] = (body[:p].rstrip() + " := by sorry").split("\n") + [""]
        names.append(name or f"example {os.path.basename(path)}:{k + 1}")
    open(full, "w").write("\n".join(src))
    return names, bad_def


def run(m):
    if os.path.exists(DIR):
        shutil.rmtree(DIR)
    subprocess.run(["cp", "-a", SRC, DIR], check=True)
    f = f"{DIR}/Verif/{m['file']}"
    s = open(f).read()
    n = s.count(m["old"])
    if n != m.get("count", 1):
        return {"id": m["id"], "error": f"anchor occurs {n} times"}
    if m.get("count", 1) > 1 and "nth" in m:
        parts = s.split(m["old"])
        i = m["nth"] + 1
        s = m["old"].join(parts[:i]) + m["new"] + m["old"].join(parts[i:])
    else:
        s = s.replace(m["old"], m["new"])
    open(f, "w").write(s)
    failed, already = [], set()
    for rnd in range(25):
        rc, errs, out = build()
        if rc == 0:
            break
        if not errs:
            return {"id": m["id"], "error": "build: " + out[-800:]}
        for path, ls in errs.items():
            names, bad = sorry_out(path, ls, already)
            failed += names
            if bad:
                return {"id": m["id"], "error": "definition does not elaborate: " + "; ".join(bad)[:800]}
    else:
        return {"id": m["id"], "error": "too many rounds", "failed": failed}
    ax = f"{DIR}/Ax.lean"
    with open(ax, "w") as h:
        h.write("import Verif\n" + "".join(f"#print axioms {t}\n" for t in ALL))
    r = subprocess.run(["lake", "env", "lean", "Ax.lean"], cwd=DIR, capture_output=True, text=True)
    out = r.stdout + r.stderr
    out1 = re.sub(r"\n\s+", " ", out)
    ok = {t for t in ALL if re.search(r"'" + re.escape(t) + r"' (does not depend|depends on axioms: \[(?![^\]]*sorryAx))", out1)}
    props = [t.split(".")[-1] for t in ALL if t not in ok]
    weak = [b for b in m["breaks"] if not any(p.startswith(b + "_") for p in props)]
    return {"id": m["id"], "definition": m["def"], "file": "lean/Verif/" + m["file"],
            "edit": {"from": m["old"], "to": m["new"]}, "claim": m["claim"], "breaks": m["breaks"],
            "theorems_failed": props,
            "lemmas_failed": sorted(set(x for x in failed if x not in props)),
            "survived": weak}


done = set()
if os.path.exists(log):
    for l in open(log):
        done.add(json.loads(l)["id"])
for k, m in enumerate(M):
    if k % nworkers != worker or m["id"] in done:
        continue
    r = run(m)
    with open(log, "a") as h:
        h.write(json.dumps(r, ensure_ascii=False) + "\n")
