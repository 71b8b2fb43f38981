"""Appends the results of tools/mutate.py (files /root/mut/out/NAME.json) that are not yet in seeded/LOG.jsonl.

Usage: python3 tools/log.py ['{"NAME": "what was tightened"}']
"""
import glob, json, pathlib, re, sys
root = pathlib.Path(__file__).resolve().parent.parent
log = root / "seeded/LOG.jsonl"
tightened = json.loads(sys.argv[1]) if len(sys.argv) > 1 else {}
known = {json.loads(l)["name"] for l in log.read_text().splitlines()}
with log.open("a") as fh:
    for p in sorted(glob.glob("/root/mut/out/*.json")):
        d = json.load(open(p))
        if d["name"] in known: continue
        text = (root / "lean" / d["file"]).read_text()
        i = text.find(d["old"])
        defs = re.findall(r"^(?:def|theorem|structure|inductive|abbrev) (\S+)", text[:i], re.M) if i >= 0 else []
        if i >= 0 and re.match(r"(?:def|abbrev) (\S+)", d["old"]): defs = [d["old"].split()[1]]
        fh.write(json.dumps({"name": d["name"], "definition": d["file"][:-5].replace("/", ".") + ("." + defs[-1] if defs else ""),
            "edit": {"old": d["old"], "new": d["new"]}, "claim_broken": d["claim"],
            "failed": d["hit"], "failed_directly": d["direct"], "tightened": tightened.get(d["name"], "")}, ensure_ascii=False) + "\n")
print(len(log.read_text().splitlines()))
