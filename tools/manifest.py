"""Writes MANIFEST.json: collects theorem names C?? from lean/Verif/Props and adds status and note."""
import json, re, glob, collections
NOTES = json.load(open("/verif/tools/notes.json"))
th = collections.defaultdict(list)
for f in sorted(glob.glob("/verif/lean/Verif/Props/*.lean")):
    for m in re.finditer(r"^theorem ((C\d+)\w*_\w+)", open(f).read(), re.M):
        th[m.group(2)].append("Verif.Props." + m.group(1))
claims = []
for line in open("/verif/properties.jsonl"):
    p = json.loads(line)["id"]
    if p in NOTES:
        st, note = NOTES[p]
        claims.append({"property": p, "status": st, "theorems": th[p], "note": note})
        if st != "not_applicable" and not th[p]: print("no theorems for", p)
    elif th[p]:
        print("no note for", p)
json.dump({"claims": claims}, open("/verif/MANIFEST.json", "w"), indent=1)
print(len(claims), "claims")
