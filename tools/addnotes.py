"""Add notes: reads a JSON object from stdin and appends it to manifest_notes.py."""
import json, sys
f = '/verif/tools/manifest_notes.py'
s = open(f).read().rstrip()
assert s.endswith("})")
s = s[:-2]
for k, v in json.load(sys.stdin).items():
    s += " %s: %s,\n" % (json.dumps(k), json.dumps(v, ensure_ascii=False))
open(f, 'w').write(s + "})\n")
