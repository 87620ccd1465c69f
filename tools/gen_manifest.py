"""Write MANIFEST.json from the theorems named Cnn_* in lean/Verif/Props and the notes below."""
import glob, json, os, re
root = os.path.dirname(os.path.dirname(os.path.abspath(__file__)))
thms = {}
for f in sorted(glob.glob(root + "/lean/Verif/Props/*.lean")):
    for n in re.findall(r"^theorem (C\d+_\w+|C\d+)", open(f).read(), re.M):
        thms.setdefault(n.split("_")[0], []).append("KT." + n)
notes = {}
status = {}
exec(open(root + "/tools/manifest_notes.py").read())
claims = []
for line in open(root + "/properties.jsonl"):
    pid = json.loads(line)["id"]
    if pid in thms:
        st = status.get(pid, "partial" if any(t.endswith(("_partial", "_violated")) for t in thms[pid]) else "proved")
        claims.append({"property": pid, "status": st, "theorems": thms[pid], "note": notes.get(pid, "")})
    else:
        claims.append({"property": pid, "status": status.get(pid, "partial"), "theorems": [],
                       "note": notes.get(pid, "Not modelled yet.")})
json.dump({"claims": claims}, open(root + "/MANIFEST.json", "w"), indent=1, ensure_ascii=False)
print(len(claims), "claims;", sum(bool(c["theorems"]) for c in claims), "with theorems")
