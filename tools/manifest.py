"""Rebuild MANIFEST.json from the theorem names in lean/Verif/Props and tools/notes.json."""
import json, pathlib, re
root = pathlib.Path(__file__).resolve().parent.parent
notes = json.loads((root / "tools/notes.json").read_text())
thms = {}
for f in sorted((root / "lean/Verif/Props").glob("*.lean")):
    for m in re.finditer(r"^theorem (C\d\d\d?)_(\w+)", f.read_text(), re.M):
        thms.setdefault(m[1], []).append(f"Optics.{m[1]}_{m[2]}")
claims = []
for line in (root / "properties.jsonl").read_text().splitlines():
    pid = json.loads(line)["id"]
    if pid not in thms:
        continue
    names = thms[pid]
    partial = any(n.endswith("_partial") or "counterexample" in n for n in names)
    n = notes.get(pid, {})
    status = n.get("status", "partial" if partial else "proved")
    claims.append({"property": pid, "status": status, "theorems": names, "note": n.get("note", "")})
(root / "MANIFEST.json").write_text(json.dumps({"claims": claims}, indent=1) + "\n")
print(len(claims), "claims;", sum(c["status"] == "proved" for c in claims), "proved")
