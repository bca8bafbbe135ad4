"""Writes section 8 of DESIGN.md: the axioms each theorem of MANIFEST.json depends on (needs a finished `lake build`)."""
import json, pathlib, re, subprocess, tempfile
root = pathlib.Path(__file__).resolve().parent.parent
claims = json.loads((root / "MANIFEST.json").read_text())["claims"]
names = [t for c in claims for t in c["theorems"]]
with tempfile.NamedTemporaryFile("w", suffix=".lean", delete=False) as f:
    f.write("import Verif\n" + "".join(f"#print axioms {t}\n" for t in names))
out = subprocess.run(["lake", "env", "lean", f.name], cwd=root / "lean", capture_output=True, text=True).stdout
sets = {}
for m in re.finditer(r"'(\S+)' (?:does not depend on any axioms|depends on axioms: \[([^\]]*)\])", out):
    sets[m.group(1)] = tuple(sorted(x.strip() for x in (m.group(2) or "").replace("\n", " ").split(",") if x.strip()))
assert set(sets) == set(names), set(names) ^ set(sets)
by = {}
for t in dict.fromkeys(names): by.setdefault(sets[t], []).append(t.removeprefix("Httpsig."))
rows = ["| axioms | theorems |", "| --- | --- |"]
for k in sorted(by, key=len):
    rows.append("| " + (", ".join(f"`{x}`" for x in k) or "none") + " | " + ", ".join(f"`{t}`" for t in by[k]) + " |")
design = root / "DESIGN.md"
head = design.read_text().split("## 8. Axioms per theorem")[0]
design.write_text(head + "## 8. Axioms per theorem\n\n" + "\n".join(rows) + "\n")
