"""Writes MANIFEST.json: the theorems of each property, found by the property id at the start of their names."""
import json, pathlib, re
root = pathlib.Path(__file__).resolve().parent.parent
notes = json.loads((root / "tools/notes.json").read_text())
thms = {}
for p in sorted((root / "lean/Verif/Props").glob("*.lean")):
    ns = re.search(r"^namespace (\S+)", p.read_text(), re.M).group(1)
    for m in re.finditer(r"^theorem ((C\d\d+)_\w+)", p.read_text(), re.M):
        thms.setdefault(m.group(2), []).append(f"{ns}.{m.group(1)}")
claims = []
for line in (root / "properties.jsonl").read_text().splitlines():
    id = json.loads(line)["id"]
    if id not in thms:
        continue
    n = notes.get(id, "")
    partial = all(t.endswith("_partial") for t in thms[id]) or n.startswith("PARTIAL")
    claims.append({"property": id, "status": "partial" if partial else "proved", "theorems": thms[id], "note": n})
(root / "MANIFEST.json").write_text(json.dumps({"claims": claims}, indent=1) + "\n")
print(len(claims), "claims;", "missing:", [json.loads(l)["id"] for l in (root / "properties.jsonl").read_text().splitlines() if json.loads(l)["id"] not in thms])
