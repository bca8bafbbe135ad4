#!/usr/bin/env python3
"""Run seeded-bug experiments in a scratch copy of the Lean project.

usage: [MUTATE_SRC=DIR] mutate.py MUTATIONS.json RESULTS.jsonl [SCRATCH]

Each mutation is {"id", "file", "old", "new", "claim"}; `old` must occur exactly once in lean/Verif/`file`.
The scratch copy is rebuilt; declarations whose proofs no longer check are replaced by `sorry` (in the scratch copy only)
until the rest builds, and the property theorems that then depend on `sorryAx` are listed.
"""
import json, os, re, shutil, subprocess, sys

SRC = os.environ.get("MUTATE_SRC", "/verif/lean")
SCRATCH = sys.argv[3] if len(sys.argv) > 3 else "/tmp/mut/lean"
KW = re.compile(r"^(?:@\[[^\]]*\]\s*)?(?:private |protected |noncomputable )*(theorem|def|example|instance|structure|inductive|abbrev|class|lemma)\b\s*([^\s:({\[]*)")
TOP = re.compile(r"^(?:@\[|private |protected |noncomputable |theorem|def|example|instance|structure|inductive|abbrev|class|/--|/-|section|end|namespace|variable|open|attribute|omit|set_option|#|import|local|termination_by|decreasing_by)")

def sync():
    os.makedirs(SCRATCH, exist_ok=True)
    for d in ("Verif",):
        seen = set()
        for root, _, files in os.walk(os.path.join(SRC, d)):
            for f in files:
                a = os.path.join(root, f)
                b = os.path.join(SCRATCH, os.path.relpath(a, SRC))
                seen.add(b)
                os.makedirs(os.path.dirname(b), exist_ok=True)
                x = open(a, "rb").read()
                if not os.path.exists(b) or open(b, "rb").read() != x:
                    open(b, "wb").write(x)
        for root, _, files in os.walk(os.path.join(SCRATCH, d)):
            for f in files:
                if os.path.join(root, f) not in seen:
                    os.remove(os.path.join(root, f))
    shutil.copy(SRC + "/Verif.lean", SCRATCH + "/Verif.lean")

def decl_at(lines, ln):
    """start index and end index (exclusive) of the declaration containing line index ln"""
    i = ln
    while i >= 0 and not KW.match(lines[i]):
        i -= 1
    if i < 0:
        return None
    j = i + 1
    while j < len(lines) and not (TOP.match(lines[j]) and not lines[j].startswith(("termination_by", "decreasing_by"))):
        j += 1
    m = KW.match(lines[i])
    return i, j, m.group(1), m.group(2)

def sorry_decl(text):
    depth = 0
    k = 0
    opens, closes = "([{⟨", ")]}⟩"
    while k < len(text):
        c = text[k]
        lit = re.match(r"'(\\.|[^\\'])'|\"(\\.|[^\\\"])*\"", text[k:])
        if lit and not (k and (text[k-1].isalnum() or text[k-1] in "_'")):
            k += lit.end()
            continue
        if c in opens: depth += 1
        elif c in closes: depth -= 1
        elif depth == 0 and text.startswith(":=", k):
            if re.search(r"\b(let|have)\s[^\n]*$", text[:k]):
                k += 2
                continue
            return text[:k].rstrip() + " := sorry\n"
        elif depth == 0 and re.match(r"\n\s+\| ", text[k:]):
            return text[:k].rstrip() + " := sorry\n"
        elif depth == 0 and re.match(r" where\s*\n", text[k:]):
            return text[:k].rstrip() + " := sorry\n"
        k += 1
    return None

def build():
    p = subprocess.run(["lake", "build"], cwd=SCRATCH, capture_output=True, text=True, env=dict(os.environ, LEAN_NUM_THREADS="3"))
    out = p.stdout + p.stderr
    errs = []
    for m in re.finditer(r"error: (Verif/[\w/]+\.lean):(\d+):(\d+):", out):
        errs.append((m.group(1), int(m.group(2)) - 1))
    return p.returncode, errs, out

AX = '''import Lean.Elab.Command
import Verif
open Lean
run_cmd do
  let env ← getEnv
  for (n, _) in env.constants.map₁.toList do
    let s := n.toString
    if (s.splitOn ".").any (fun p => p.length > 4 && p.startsWith "C" && ((p.toList.drop 1).take 2).all Char.isDigit && ((p.toList.drop 1).dropWhile Char.isDigit).head? == some '_') && !n.isInternal then
      let ax ← Elab.Command.liftCoreM (collectAxioms n)
      if ax.contains ``sorryAx then IO.println s!"TAINT {s}"
'''

def tainted():
    f = os.path.join(SCRATCH, "Ax.lean")
    open(f, "w").write(AX)
    p = subprocess.run(["lake", "env", "lean", "Ax.lean"], cwd=SCRATCH, capture_output=True, text=True)
    os.remove(f)
    return sorted({l.split()[1].split(".")[-1] for l in p.stdout.splitlines() if l.startswith("TAINT")}), p.stdout[-300:] if "error" in p.stdout else ""

def run(m):
    sync()
    f = os.path.join(SCRATCH, "Verif", m["file"])
    s = open(f).read()
    if s.count(m["old"]) != 1:
        return dict(m, status="bad", why=f"old occurs {s.count(m['old'])} times")
    open(f, "w").write(s.replace(m["old"], m["new"]))
    failed = []
    for rnd in range(14):
        rc, errs, out = build()
        if rc == 0:
            break
        if not errs:
            return dict(m, status="bad", why=out[-800:])
        byfile = {}
        for fn, ln in errs:
            byfile.setdefault(fn, set()).add(ln)
        progress = False
        for fn, lns in byfile.items():
            p = os.path.join(SCRATCH, fn)
            lines = open(p).read().split("\n")
            ds = sorted({decl_at(lines, ln) for ln in lns if decl_at(lines, ln)}, reverse=True)
            for i, j, kw, name in ds:
                body = "\n".join(lines[i:j]) + "\n"
                if kw in ("def", "structure", "inductive", "abbrev", "class") and ("/Model/" in fn or fn.count("/") == 1 or "/Sfv/" in fn):
                    return dict(m, status="bad", why=f"{kw} {name} in {fn} fails: " + out[-600:])
                t = sorry_decl(body)
                if t is None or body.rstrip().endswith(":= sorry"):
                    return dict(m, status="stuck", why=f"{kw} {name} in {fn}: " + out[-600:], failed=failed)
                lines[i:j] = t.rstrip("\n").split("\n") + [""]
                label = name if kw != "example" else f"example {os.path.basename(fn)}:{i+1}"
                if kw == "instance": label = "instance " + lines[i][:60]
                failed.append(label)
                progress = True
            open(p, "w").write("\n".join(lines))
        if not progress:
            return dict(m, status="stuck", why=out[-600:], failed=failed)
    else:
        return dict(m, status="stuck", why="too many rounds", failed=failed)
    t, e = tainted()
    return dict(m, status="done", failed=failed, tainted=t, note=e)

muts = json.load(open(sys.argv[1]))
done = set()
if os.path.exists(sys.argv[2]):
    done = {json.loads(l)["id"] for l in open(sys.argv[2])}
for m in muts:
    if m["id"] in done:
        continue
    r = run(m)
    with open(sys.argv[2], "a") as o:
        o.write(json.dumps(r, ensure_ascii=False) + "\n")
    print(m["id"], r["status"], len(r.get("failed", [])), len(r.get("tainted", [])), r.get("why", "")[:200], flush=True)
