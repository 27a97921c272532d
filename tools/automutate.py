#!/usr/bin/env python3
"""Usage: automutate.py out.jsonl N seed [Model/X.lean ...]
Random operator mutations of the bodies of model definitions, N per file, in a scratch copy /tmp/am/lean.  A mutant that no longer
elaborates in its own file is discarded; the others are built in full; survivors (no theorem fails) are what to look at.
With PER_DEF=1 in the environment: one mutant for each definition that seeded/LOG.jsonl does not mention yet."""
import json, os, random, re, signal, subprocess, sys
SRC="/verif/lean"; DST="/tmp/am/lean"
out, N, seed = sys.argv[1], int(sys.argv[2]), int(sys.argv[3])
files = sys.argv[4:]
subprocess.run("mkdir -p /tmp/am && rm -rf %s && cp -a %s %s"%(DST,SRC,DST),shell=True,check=True)
if not files:
    files = sorted("Model/"+f for f in os.listdir(DST+"/Verif/Model"))
OPS=[(r" < "," ≤ "),(r" ≤ "," < "),(r" > "," ≥ "),(r" ≥ "," > "),(r" ≠ "," = "),(r" = "," ≠ "),(r" ∧ "," ∨ "),(r" ∨ "," ∧ "),
     (r" \+ 1\b",""),(r" - 1\b",""),(r" \+ "," - "),(r" - "," + "),(r" \* "," + "),(r"\btrue\b","false"),(r"\bfalse\b","true"),
     (r"\b(\d+)\b",lambda m:str(int(m.group(1))+1)),(r"\.take ",".drop "),(r"\.drop ",".take "),(r"\bsome ","none -- "),
     (r"\[(\w[\w.]*), (\w[\w.]*)",lambda m:"[%s, %s"%(m.group(2),m.group(1))),(r"\((\w[\w.]*), (\w[\w.]*)\)",lambda m:"(%s, %s)"%(m.group(2),m.group(1))),
     (r"(?<=[a-z]) ([a-zA-Z][\w.']*) ([a-zA-Z][\w.']*)(?=[ )\n])",lambda m:" %s %s"%(m.group(2),m.group(1))),
     (r"if ([^\n]*?) then",lambda m:"if False then"),(r"if ([^\n]*?) then",lambda m:"if True then"),(r" % [\w.]+",""),(r"\.emod [\w.]+"," ")]
def sites(src):
    """(start,end,replacement,def name) inside bodies of definitions"""
    res=[]; pos=0; cur=None; body=False; incom=False
    for line in src.splitlines(True):
        if incom:
            if "-/" in line: incom=False
            pos+=len(line); continue
        if line.lstrip().startswith(("/-",)):
            if "-/" not in line: incom=True
            pos+=len(line); continue
        m=re.match(r"(?:@\[[^\]]*\]\s*)?(?:private |noncomputable )*(def|theorem|structure|inductive|instance|abbrev|namespace|open|end|variable|section|import|deriving)\b\s*(\S*)",line)
        start=0
        if m:
            cur=m.group(2) if m.group(1)=="def" else None
            if cur and ":=" in line: start=line.index(":=")+2
            elif cur: start=len(line)
        if cur:
            code=line.split("--")[0]
            for pat,rep in OPS:
                for k in re.finditer(pat,code):
                    if k.start()<start: continue
                    r=rep(k) if callable(rep) else rep
                    if r!=k.group(0) and "-- " not in r: res.append((pos+k.start(),pos+k.end(),r,cur))
        pos+=len(line)
    return res
rnd=random.Random(seed)
PER=os.environ.get("PER_DEF")
seen=set()
if PER:
    for l in open("/verif/seeded/LOG.jsonl"):
        seen|={w.split(".")[-1] for w in re.findall(r"[\w.']+",json.loads(l)["definition"])}
class R:
    pass
def build(*t):
    """The build is stopped as soon as a theorem has failed."""
    p=subprocess.Popen(["nice","lake","build",*t],cwd=DST,stdout=subprocess.PIPE,stderr=subprocess.STDOUT,text=True,start_new_session=True)
    r=R(); r.stdout=""; r.stderr=""
    for l in p.stdout:
        r.stdout+=l
        if re.search(r"error: Verif/\S+?\.lean:\d+",l):
            os.killpg(p.pid,signal.SIGKILL); break
    p.wait(); r.returncode=p.returncode
    return r
for f in files:
    p=os.path.join(DST,"Verif",f); s=open(p).read(); st=sites(s); rnd.shuffle(st); done=0
    mod="Verif."+f[:-5].replace("/",".")
    for a,b,r,d in st:
        if done>=N: break
        if PER and d.split(".")[-1] in seen: continue
        open(p,"w").write(s[:a]+r+s[b:])
        ln=s.count("\n",0,a)
        old=s.splitlines()[ln]; new=(s[:a]+r+s[b:]).splitlines()[ln]
        if build(mod).returncode!=0: continue
        done+=1
        if PER: seen.add(d.split(".")[-1])
        o=build(); txt=o.stdout+o.stderr
        fails=sorted(set(re.findall(r"error: Verif/(\S+?)\.lean:\d+",txt)))
        if o.returncode!=0 and not fails: fails=["?"+txt[-200:]]
        with open(out,"a") as fo: fo.write(json.dumps(dict(file=f,definition=d,old=old.strip(),new=new.strip(),fails=fails),ensure_ascii=False)+"\n")
    open(p,"w").write(s)
    build()
