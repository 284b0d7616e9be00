"""Regenerate MANIFEST.json from the theorem names in lean/Verif/Props and tools/status.json.

status.json maps a property id to [status, note]. Theorem names are those starting with the property id.
Properties without an entry in status.json are left out of the manifest.
"""
import json
import pathlib
import re

root = pathlib.Path(__file__).resolve().parent.parent
status = json.loads((root / "tools/status.json").read_text())
names = {}
for path in sorted((root / "lean/Verif/Props").glob("*.lean")):
    for m in re.finditer(r"^theorem (C\d\d\d?)(_\w+)", path.read_text(), re.M):
        names.setdefault(m.group(1), []).append("Verif." + m.group(1) + m.group(2))
claims = []
for line in (root / "properties.jsonl").read_text().splitlines():
    pid = json.loads(line)["id"]
    if pid in status:
        st, note = status[pid]
        assert names.get(pid), pid
        claims.append({"property": pid, "status": st, "theorems": names[pid], "note": note})
    elif pid in names:
        print("no status for", pid)
(root / "MANIFEST.json").write_text(
    '{"claims": [\n' + ",\n".join(json.dumps(c, ensure_ascii=False) for c in claims) + "\n]}\n"
)
print(len(claims), "claims", sum(len(c["theorems"]) for c in claims), "theorems")
