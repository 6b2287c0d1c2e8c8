#!/usr/bin/env python3
"""Write a list of random small edits of the model's definitions, for mutate.py.
usage: automut.py SEED COUNT OUT.py [DONE.jsonl ...]   (definitions edited in DONE are drawn less often)"""
import sys,re,glob,random,json
seed,count,out=int(sys.argv[1]),int(sys.argv[2]),sys.argv[3]
done={}
for f in sys.argv[4:]:
    for l in open(f):
        d=json.loads(l)["definition"]; done[d]=done.get(d,0)+1
rnd=random.Random(seed)
SKIP={"Call.isQuery","Call.isInit","runCalls","traceCalls","World.run","World.trace","LWorld.run","int32Min","zeroOpt","fresh"}
OPS=[(r"(?<![\w.^])(\d+)(?![\w.])",lambda m:str(int(m.group(1))+1)),
 (r" \+ ",lambda m:" - "),(r" - ",lambda m:" + "),(r" \* ",lambda m:" / "),(r" / ",lambda m:" * "),
 (r" < ",lambda m:" ≤ "),(r" ≤ ",lambda m:" < "),(r" ≠ ",lambda m:" = "),(r"&&",lambda m:"||"),(r" ∧ ",lambda m:" ∨ "),(r" ∨ ",lambda m:" ∧ "),
 (r"Fl\.lt\b",lambda m:"Fl.le"),(r"Fl\.le\b",lambda m:"Fl.lt"),(r"Fl\.cos\b",lambda m:"Fl.sin"),(r"Fl\.sin\b",lambda m:"Fl.cos"),
 (r"\bif ([^\n]*?) then",lambda m:f"if ¬ ({m.group(1)}) then"),
 (r", (\w+) := [^,{}\n]*(?=[,}])",lambda m:""),
 (r"(?<=with )(\w+) := [^,{}\n]*, ",lambda m:""),
 (r"-\(",lambda m:"("),(r"\.transpose\b",lambda m:""),(r"\btrue\b",lambda m:"false"),(r"\bfalse\b",lambda m:"true"),
 (r"\.gyro\b",lambda m:".acce"),(r"\.acce\b",lambda m:".gyro"),(r"\.lat\b",lambda m:".lon"),(r"\.lon\b",lambda m:".lat"),
 (r"\.vn\b",lambda m:".atti"),(r"\.atti\b",lambda m:".vn"),(r"\bgbIni\b",lambda m:"abIni"),(r"\babStd\b",lambda m:"gbStd"),
 (r" \+\+ [^+\n]*?(?= \+\+|\n|$)",lambda m:""),(r"\.posStd\b",lambda m:".attStd"),(r"mmul (\w+) (\w+)",lambda m:f"mmul {m.group(2)} {m.group(1)}"),
 (r"cross (\S+) (\S+)",lambda m:f"cross {m.group(2)} {m.group(1)}"),(r"SENSOR_ZUPT",lambda m:"SENSOR_NHC"),(r"\.normalized\b",lambda m:"")]
cands={}
import os
ONLY=os.environ.get("ONLY","").split()
for p in sorted(glob.glob("/verif/lean/Verif/Model/*.lean")):
    mod=p.split("/")[-1][:-5]; s=open(p).read()
    if ONLY and mod not in ONLY: continue
    for m in re.finditer(r"^(?:@\[[^\]]*\] )?(?:noncomputable )?def ([\w.']+)(.*?)(?=^\S|\Z)",s,re.M|re.S):
        name,body=m.group(1),m.group(2)
        if name in SKIP: continue
        # body starts after the signature
        i=body.find(":=\n"); k=body.find("\n  | "); e=body.find(" := ")
        st=min([x for x in (i,k,e) if x>=0],default=-1)
        if st<0: continue
        start=m.start(2)+st
        text=s[start:m.end(2)]
        for rx,fn in OPS:
            for mm in re.finditer(rx,text):
                if re.search(r"(Fin|BitVec|Nat|Int|ofNat|ofInt|Matrix) $",text[:mm.start()]) : continue
                a=start+mm.start(); b=start+mm.end()
                # context that makes the old text unique
                lo=s.rfind("\n",0,a)+1; hi=s.find("\n",b); hi=len(s) if hi<0 else hi
                line=s[lo:hi]
                new=s[lo:a]+fn(mm)+s[b:hi]
                if new==line: continue
                old=line
                while s.count(old)>1 and lo>m.start():
                    lo2=s.rfind("\n",0,lo-1)+1; old=s[lo2:hi]; new=s[lo2:lo]+new; lo=lo2
                if s.count(old)!=1: continue
                cands.setdefault(f"{mod}.{name}",[]).append((mod,name,old,new))
M=[]
names=sorted(cands)
docs={}
while len(M)<count:
    w=[1/(1+2*done.get(n,0)) for n in names]
    n=rnd.choices(names,w)[0]
    x=rnd.choice(cands[n])
    if any(y[:4]==x for y in M): continue
    done[n]=done.get(n,0)+1
    s=open(f"/verif/lean/Verif/Model/{x[0]}.lean").read()
    d=re.search(r"/--((?:(?!-/).)*)-/\s*(?:@\[[^\]]*\] )?(?:noncomputable )?def "+re.escape(x[1])+r"\b",s,re.S)
    doc=" ".join(d.group(1).split())[:160] if d else x[1]
    M.append(x+("what the code does: "+doc,))
open(out,"w").write("KEEP=False\nFAST=True\nM="+repr(M).replace("), (","),\n(")+"\n")
print(len(names),len(M))
