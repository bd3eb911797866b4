"""Append a property: python3 tools/addprop.py < file.json, with id, title, statement, quantifier, why_tests_cant, anchors, status, note."""
import json, sys
p = json.load(sys.stdin)
status, note, design = p.pop("status"), p.pop("note"), p.pop("design", None)
lines = open("properties.jsonl").read().splitlines()
assert not any(json.loads(l)["id"] == p["id"] for l in lines)
open("properties.jsonl", "a").write(json.dumps(p, ensure_ascii=False) + "\n")
n = json.load(open("tools/notes.json"))
n[p["id"]] = {"status": status, "note": note}
json.dump(n, open("tools/notes.json", "w"), indent=1, ensure_ascii=False)
if design:
    s = open("DESIGN.md").read().split("\n")
    last = max(i for i, l in enumerate(s) if l.startswith("| C") and l[3:5].isdigit())
    s.insert(last + 1, "| %s | %s | %s |" % (p["id"], design[0], design[1]))
    open("DESIGN.md", "w").write("\n".join(s))
