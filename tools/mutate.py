#!/usr/bin/env python3
"""Run seeded-bug experiments on a scratch copy of the Lean project.
usage: mutate.py MUTANTS.py OUT.jsonl [first [last]]
MUTANTS.py defines M = [(file, definition, old, new, claim)], file relative to lean/Verif/Model."""
import sys, os, re, json, subprocess, shutil
SRC="/verif/lean"; MUT=os.environ.get("MUTDIR","/tmp/mut"); W=MUT+"/work"; P=MUT+"/pristine"
ns={}; exec(open(sys.argv[1]).read(), ns); M=ns["M"]
out=sys.argv[2]; lo=int(sys.argv[3]) if len(sys.argv)>3 else 0; hi=int(sys.argv[4]) if len(sys.argv)>4 else len(M)
if not ns.get("KEEP"):
    shutil.rmtree(P,ignore_errors=True); subprocess.run(["cp","-a",SRC,P],check=True)
def reset(): shutil.rmtree(W,ignore_errors=True); subprocess.run(["cp","-a",P,W],check=True)
def enclosing(path,line):
    ls=open(path).read().split("\n")
    for i in range(line-1,-1,-1):
        m=re.match(r"(?:@\[[^\]]*\]\s*)?(?:private |noncomputable |protected )*(theorem|lemma|def|example|instance)\s*([^\s:({\[]*)",ls[i])
        if m: return (m.group(2) or m.group(1))
    return "?"
for k in range(lo,hi):
    f,d,old,new,claim=M[k]
    reset()
    p=f"{W}/Verif/Model/{f}.lean" if "/" not in f else f"{W}/Verif/{f}.lean"
    s=open(p).read()
    if s.count(old)<1:
        print(k,"NOT FOUND",f,old); continue
    if s.count(old)>1:
        # restrict to the text after the definition
        i=s.find("def "+d.split(".")[-1]+" ")
        i = i if i>=0 else s.find("def "+d+" ")
        j=s.find(old,i)
        if i<0 or j<0: print(k,"AMBIGUOUS",f,old); continue
        s=s[:j]+new+s[j+len(old):]
    else: s=s.replace(old,new)
    open(p,"w").write(s)
    if ns.get("FAST"):   # stop 25 seconds after the first theorem that fails
        import signal, threading
        q=subprocess.Popen(["lake","build",*ns.get("TARGETS",[])],cwd=W,stdout=subprocess.PIPE,stderr=subprocess.STDOUT,text=True,start_new_session=True)
        txt=""; early=False
        for line in q.stdout:
            txt+=line
            if line.startswith("error: Verif/"):
                if "/Model/" in line or "/Spec/" in line: early=True; os.killpg(q.pid,signal.SIGKILL); break
                if not early:
                    early=True; tm=threading.Timer(25,lambda: os.killpg(q.pid,signal.SIGKILL)); tm.start()
        q.wait()
        try: tm.cancel()
        except NameError: pass
        rc=1 if early else q.returncode
    else:
        r=subprocess.run(["lake","build",*ns.get("TARGETS",[])],cwd=W,capture_output=True,text=True,timeout=3600)
        txt=r.stdout+r.stderr; rc=r.returncode
    fails=[]; broken=set(); modelerr=False
    for m in re.finditer(r"error: (Verif/\S+\.lean):(\d+):\d+: (.*)",txt):
        path=m.group(1)
        n=enclosing(f"{W}/{path}",int(m.group(2)))
        if "/Model/" in path: modelerr=True
        x=os.path.basename(path)[:-5]+":"+n if not n.startswith("C") else n
        if x not in fails: fails.append(x)
        broken.add(path)
    rec=dict(definition=f"{f}.{d}",edit=f"{old.strip()} -> {new.strip()}",claim=claim,failed=fails,survived=(rc==0),model_error=modelerr)
    open(out,"a").write(json.dumps(rec,ensure_ascii=False)+"\n")
    print(k,"SURVIVED" if rc==0 else ("MODELERR" if modelerr else "killed"),f,d,fails[:8],flush=True)
