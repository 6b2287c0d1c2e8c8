#!/usr/bin/env python3
"""Turn the outputs of mutate.py (arguments) into /verif/seeded/LOG.jsonl.
TIGHT maps (definition, start of edit) to the theorems added because the edit survived."""
import json,sys
TIGHT={
("Api.rgioeGnssupdate","if d.status = ST_INIT then (E_OK"):["C12_update_codes"],
("Api.rgioeGetPos","(v3 r.lat"):["C84_result","C85_getters_agree"],
("Align.yawStep","Fl.atan2 (vn 1)"):["C89_velocity"],
("Align.fixStep","- mvec (diagM vdr)"):["C88_position"],
("Align.fixStep","(-1)"):["C88_position"],
("Align.fixStep","gb := para"):["C91_configured_biases"],
("Align.levelAngles","-(Fl.asin"):["C87_levelling"],
("Fusion.Monitor.onTimeUpdate",""):["C96_share","C96_shares_end"],
("Fusion.Monitor.onMeasUpdate",""):["C96_share","C96_shares_end"],
("Fusion.projPos",""):["C84_projected_position"],
("Fusion.output",""):["C84_result"],
("Fusion.transferMatrix","let p5"):["C93_transition"],
}
try: exec(open("/verif/tools/tight.py").read())
except FileNotFoundError: pass
out=[]
for f in sys.argv[1:]:
    for l in open(f):
        r=json.loads(l)
        t=[]
        if r["survived"]:
            for (d,e),v in TIGHT.items():
                if r["definition"]==d and r["edit"].startswith(e): t=v
        out.append(dict(definition=r["definition"],edit=r["edit"],claim=r["claim"],
          result="survived" if r["survived"] else ("rejected in the model file" if r["model_error"] and not [x for x in r["failed"]] else "killed"),
          theorems_failed=r["failed"],theorems_tightened=t))
open("/verif/seeded/LOG.jsonl","w").write("".join(json.dumps(o,ensure_ascii=False)+"\n" for o in out))
print(len(out),sum(o["result"]=="survived" for o in out))
