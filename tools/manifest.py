"""Regenerates MANIFEST.json: one claim per line of properties.jsonl, the theorems named after it, and a note."""
import json, re, pathlib
root = pathlib.Path(__file__).resolve().parent.parent
notes = json.loads((root / "tools" / "notes.json").read_text())
ths = {}
for f in sorted((root / "lean/Verif/Props").glob("*.lean")):
    ns = []
    for line in f.read_text().splitlines():
        m = re.match(r"namespace (\S+)", line)
        if m: ns.append(m.group(1))
        m = re.match(r"end (\S+)", line)
        if m and ns and ns[-1] == m.group(1): ns.pop()
        m = re.match(r"(?:@\[[^\]]*\] )?theorem ((C\d\d+)_\S+)", line)
        if m: ths.setdefault(m.group(2), []).append(".".join(ns + [m.group(1)]))
claims, seen = [], set()
for line in (root / "properties.jsonl").read_text().splitlines():
    if not line.strip(): continue
    p = json.loads(line)["id"]
    n = notes.get(p, {})
    t = ths.get(p, []) + [next(x for l in ths.values() for x in l if x.split(".")[-1] == a) for a in n.get("also", [])]
    seen.add(p)
    partial = any("_partial" in x or "_neg_" in x for x in t)
    status = n.get("status") or ("partial" if partial or not t else "proved")
    claims.append({"property": p, "status": status, "theorems": t, "note": n.get("note", "" if t else "not yet proved")})
assert not set(ths) - seen, set(ths) - seen
(root / "MANIFEST.json").write_text(json.dumps({"claims": claims}, indent=1, ensure_ascii=False) + "\n")
print({s: sum(c["status"] == s for c in claims) for s in ("proved", "partial", "not_applicable")},
      "no theorems:", [c["property"] for c in claims if not c["theorems"]])
