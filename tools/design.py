"""Fills the generated parts of DESIGN.md: the list of properties and the axioms of each theorem.
The axioms are read from the file given as argument (output of `#print axioms`); without it that part is kept."""
import json, pathlib, re, sys
root = pathlib.Path(__file__).resolve().parent.parent
text = (root / "DESIGN.md").read_text()
claims = {c["property"]: c for c in json.loads((root / "MANIFEST.json").read_text())["claims"]}

def fill(name, body):
    global text
    text = re.sub(rf"<!-- {name} -->.*?<!-- end {name} -->", lambda _: f"<!-- {name} -->\n{body}\n<!-- end {name} -->", text, flags=re.S)

out = []
for line in (root / "properties.jsonl").read_text().splitlines():
    p = json.loads(line)
    c = claims[p["id"]]
    names = ", ".join(f"`{t.split('.')[-1]}`" for t in c["theorems"])
    out.append(f"* **{p['id']}** {p['title']} ({c['status']}: {names}).  {c['note']}")
fill("properties", "\n".join(out))
if len(sys.argv) > 1:
    groups = {}
    for m in re.finditer(r"'([\w.]+)' (does not depend on any axioms|depends on axioms: \[([^\]]*)\])", pathlib.Path(sys.argv[1]).read_text()):
        ax = tuple(sorted(a.strip() for a in (m.group(3) or "").split(",") if a.strip()))
        groups.setdefault(ax, []).append(m.group(1).split(".")[-1])
    fill("axioms", "\n".join(f"* Depending on {', '.join(f'`{a}`' for a in ax) if ax else 'no axiom'}: {', '.join(f'`{n}`' for n in sorted(ns))}." for ax, ns in sorted(groups.items(), key=lambda g: (len(g[0]), g[0]))))
(root / "DESIGN.md").write_text(text)
