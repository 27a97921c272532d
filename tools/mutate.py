#!/usr/bin/env python3
"""Usage: mutate.py mutants.json [--log] [--fast]
Each mutant: {"file": "Model/X.lean", "definition": .., "old": .., "new": .., "edit": .., "claim": ..}.
Works in a scratch copy /tmp/t/lean, rebuilds, reports which theorems fail, restores the file."""
import json, os, re, signal, subprocess, sys
SRC="/verif/lean"; DST="/tmp/t/lean"
os.makedirs(DST, exist_ok=True)
subprocess.run(["rsync","-a","--delete",SRC+"/",DST+"/"], check=True) if subprocess.run(["which","rsync"],capture_output=True).returncode==0 else subprocess.run("rm -rf %s && cp -a %s %s"%(DST,SRC,DST),shell=True,check=True)
muts=json.load(open(sys.argv[1])); log="--log" in sys.argv
def enclosing(path, line):
    name=None
    for i,l in enumerate(open(path),1):
        if i>line: break
        m=re.match(r"\s*(?:@\[[^\]]*\]\s*)?(?:private |protected |noncomputable )*(theorem|lemma|def|example|instance|abbrev|structure|inductive)\b\s*(\S*)", l)
        if m: name=m.group(2) if m.group(1)!="example" else "example@%d"%i
    return name
def build():
    """With --fast the build is stopped as soon as a theorem has failed."""
    if "--fast" not in sys.argv:
        out=subprocess.run(["lake","build"],cwd=DST,capture_output=True,text=True)
        return out.returncode,out.stdout+out.stderr
    p=subprocess.Popen(["lake","build"],cwd=DST,stdout=subprocess.PIPE,stderr=subprocess.STDOUT,text=True,start_new_session=True)
    txt=""
    for l in p.stdout:
        txt+=l
        if re.search(r"error: Verif/\S+?\.lean:\d+",l):
            os.killpg(p.pid,signal.SIGKILL); break
    p.wait()
    return (p.returncode or 0),txt
for m in muts:
    p=os.path.join(DST,"Verif",m["file"]); s=open(p).read()
    if s.count(m["old"])!=1:
        print("!! old occurs %d times: %s"%(s.count(m["old"]),m["old"][:60])); continue
    open(p,"w").write(s.replace(m["old"],m["new"]))
    rc,txt=build()
    fails=[]
    for f,l in re.findall(r"error: (Verif/\S+?\.lean):(\d+):\d+",txt):
        n=enclosing(os.path.join(DST,f),int(l))
        t="%s:%s"%(f.replace("Verif/","").replace(".lean",""),n)
        if t not in fails: fails.append(t)
    mods=sorted(set(re.findall(r"^- (Verif\S*)",txt,re.M)))
    open(p,"w").write(s)
    print("==",m["definition"],"|",m["edit"],"\n   fails:",fails if fails else "NONE" if rc==0 else txt[-400:],flush=True)
    if log:
        with open("/verif/seeded/LOG.jsonl","a") as fo:
            fo.write(json.dumps({"definition":m["definition"],"file":m["file"],"edit":m["edit"],"claim_broken":m["claim"],"theorems_failed":fails,"theorems_tightened":m.get("tightened",[])})+"\n")
