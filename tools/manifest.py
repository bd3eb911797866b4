"""Regenerate MANIFEST.json from the theorem names in lean/Verif/Props (theorem Cnn_xxx belongs to Cnn)."""
import json, re, glob, os
root = os.path.dirname(os.path.dirname(os.path.abspath(__file__)))
names = {}
for f in sorted(glob.glob(root + "/lean/Verif/Props/*.lean")):
    for m in re.finditer(r"^theorem (C\d\d+)(_\w+'?)", open(f).read(), re.M):
        names.setdefault(m.group(1), []).append("Shareloc." + m.group(1) + m.group(2))
notes = json.load(open(root + "/tools/notes.json"))
claims = []
for l in open(root + "/properties.jsonl"):
    pid = json.loads(l)["id"]
    n = notes.get(pid)
    if n is None or pid not in names and n["status"] != "not_applicable":
        continue
    claims.append({"property": pid, "status": n["status"], "theorems": names.get(pid, []), "note": n["note"]})
json.dump({"claims": claims}, open(root + "/MANIFEST.json", "w"), indent=1, ensure_ascii=False)
print(len(claims), {s: sum(c["status"] == s for c in claims) for s in ("proved", "partial", "not_applicable")})
