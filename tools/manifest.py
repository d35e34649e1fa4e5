"""Regenerates MANIFEST.json from the theorem names in lean/Verif/Props and tools/notes.json."""
import json, pathlib, re

root = pathlib.Path(__file__).resolve().parent.parent
notes = json.loads((root / "tools/notes.json").read_text())
thms = {}
for f in sorted((root / "lean/Verif/Props").glob("*.lean")):
  for m in re.finditer(r"^theorem (C\d\d\d?)_(\w+)", f.read_text(), re.M):
    thms.setdefault(m[1], []).append("Feedx." + m[1] + "_" + m[2])
claims = []
for line in (root / "properties.jsonl").read_text().splitlines():
  p = json.loads(line)
  i = p["id"]
  names = thms.get(i, [])
  partial = any(n.endswith(("_partial", "_false")) for n in names)
  status = "partial" if partial or not names else "proved"
  note = notes.get(i, "")
  if not names:
    note = note or "Not proved yet."
  claims.append({"property": i, "status": status, "theorems": names, "note": note})
(root / "MANIFEST.json").write_text(json.dumps({"claims": claims}, indent=1, ensure_ascii=False) + "\n")
print({s: sum(c["status"] == s for c in claims) for s in ("proved", "partial")},
      "no theorem:", [c["property"] for c in claims if not c["theorems"]])
