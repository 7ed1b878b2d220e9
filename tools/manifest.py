"""Rebuild MANIFEST.json from the property theorems (named `Cnn_...` in lean/Verif/*/Props*.lean).

The status is `proved` unless a theorem of the property carries the suffix `_partial` or NOTES overrides it.
"""
import json, os, re, glob

root = os.path.dirname(os.path.dirname(os.path.abspath(__file__)))
notes = json.load(open(os.path.join(root, "tools", "notes.json")))
ids = [json.loads(l)["id"] for l in open(os.path.join(root, "properties.jsonl"))]
found = {}
for f in sorted(glob.glob(os.path.join(root, "lean/Verif/*/*.lean"))):
    ns = None
    for line in open(f):
        m = re.match(r"namespace (\S+)", line)
        if m:
            ns = m.group(1)
        m = re.match(r"theorem ((C\d+)_\S+)", line)
        if m:
            found.setdefault(m.group(2), []).append(f"{ns}.{m.group(1)}")
claims = []
for i in ids:
    n = notes.get(i, {})
    ths = found.get(i, [])
    if not ths and not n:
        continue
    status = n.get("status") or ("partial" if any(t.endswith("_partial") for t in ths) else "proved")
    claims.append({"property": i, "status": status, "theorems": ths, "note": n.get("note", "")})
unknown = set(found) - set(ids)
assert not unknown, unknown
json.dump({"claims": claims}, open(os.path.join(root, "MANIFEST.json"), "w"), indent=1)
print(len(claims), "claims,", sum(len(c["theorems"]) for c in claims), "theorems; uncovered:", [i for i in ids if i not in {c["property"] for c in claims}])
