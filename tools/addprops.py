"""Helper: append properties and manifest rows. Usage: addprops.py FILE (a python file defining P and R)."""
import json, sys
ns = {}
exec(open(sys.argv[1]).read(), ns)
with open('/verif/properties.jsonl', 'a') as f:
    for i, t, s, q, w, a in ns['P']:
        f.write(json.dumps({"id": i, "title": t, "statement": s, "quantifier": q, "why_tests_cant": w, "anchors": a}, ensure_ascii=False) + "\n")
m = open('/verif/tools/manifest.py').read()
rows = "".join("add(%s,%s,%s,%s)\n" % tuple(json.dumps(x, ensure_ascii=False) for x in r) for r in ns['R'])
m = m.replace('if __name__', rows + 'if __name__')
open('/verif/tools/manifest.py', 'w').write(m)
v = open('/verif/lean/Verif.lean').read().rstrip()
for x in ns.get('I', []):
    v += "\nimport Verif." + x
open('/verif/lean/Verif.lean', 'w').write(v + "\n")
