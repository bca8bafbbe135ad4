"""usage: seedlog.py RESULTS.jsonl...  Rewrites seeded/LOG.jsonl from results of mutate.py.

`theorems_failed`: declarations whose own proof no longer checks, followed by the property theorems of the broken claim that rest
on one of them. `theorems_tightened` and `note` come from seeded/tightened.json, keyed by the id of the experiment.
"""
import json, pathlib, re, sys
root = pathlib.Path(__file__).resolve().parent.parent
tight = json.loads((root / "seeded" / "tightened.json").read_text())
lines = []
for f in sys.argv[1:]:
    for l in open(f):
        r = json.loads(l)
        if r["status"] == "bad": continue
        src = "lean/Verif/" + r["file"]
        # the definition that contains the edited text
        text = (root / src).read_text()
        k = text.find(r["old"])
        d = re.findall(r"(?m)^(?:@\[[^\]]*\]\s*)?(?:def|theorem|structure|inductive|instance|abbrev|class) +(\S+)", text[:k + len(r["old"])]) if k >= 0 else []
        claims = re.findall(r"C\d\d+", r["claim"])
        hit = [t for t in r.get("tainted", []) if any(t.startswith(c + "_") for c in claims)]
        failed = list(dict.fromkeys(r.get("failed", [])))
        t = tight.get(r["id"], {})
        e = {"id": r["id"], "definition": (d[-1] if d else r.get("definition", "")) + " (" + src + ")",
             "edit": {"from": r["old"], "to": r["new"]}, "breaks": r["claim"],
             "theorems_failed": failed + [h for h in hit if h not in failed], "theorems_tightened": t.get("tightened", [])}
        if t.get("note"): e["note"] = t["note"]
        lines.append(json.dumps(e, ensure_ascii=False))
(root / "seeded" / "LOG.jsonl").write_text("".join(x + "\n" for x in lines))
print(len(lines), "entries")
