#!/usr/bin/env python3
"""Runs seeded bugs against the theorems.

usage: mutate.py MUTANTS.py [name ...]

MUTANTS.py defines M = [(name, file, old, new, claim), ...].  Each edit is applied to a scratch copy of
/verif/lean under /tmp/mut, which is rebuilt.  Prints one JSON line per mutant: the declarations whose
proofs failed directly and the theorems of MANIFEST.json that depend on them (dependencies are read from
/tmp/mut/deps.jsonl, see deps.lean)."""
import json,subprocess,sys,re,os
src=sys.argv[1]; only=set(sys.argv[2:])
ns={}; exec(open(src).read(),ns); M=ns['M']
SRC=os.environ.get("MUTSRC","/verif/lean")
W=os.environ.get("MUTDIR","/tmp/mut/w")
deps={}; byfile={}
for l in open("/tmp/mut/deps.jsonl"):
    d=json.loads(l); deps[d['n']]=d
# generated declarations are attributed to the declaration that contains them
users={}
for n,d in deps.items():
    for u in d['u']: users.setdefault(u,set()).add(n)
man={t:c['property'] for c in json.load(open("/verif/MANIFEST.json"))['claims'] for t in c['theorems']}
def dependents(names):
    seen=set(names); st=list(names)
    while st:
        x=st.pop()
        for y in users.get(x,()):
            if y not in seen: seen.add(y); st.append(y)
    return seen
HDR=re.compile(r'^(?:@\[[^\]]*\]\s*)?(?:private\s+|protected\s+|noncomputable\s+)*(theorem|def|lemma|example|instance|inductive|structure|abbrev)\s*(\S*)')
def owner(text,line):
    for i in range(line-1,-1,-1):
        m=HDR.match(text[i])
        if m: return m.group(1),m.group(2),i
    return ('?','?',0)
TOP=re.compile(r'^(?:@\[|/--|/-!|theorem|def|lemma|example|instance|inductive|structure|abbrev|private|protected|noncomputable|end|namespace|section|mutual|open|variable|set_option|attribute|deriving|local)')
SO="sor"+"ry"
def stub(path,kind,ln):
    t=open(path).read().split('\n')
    e=ln+1
    while e<len(t) and not TOP.match(t[e]): e+=1
    b='\n'.join(t[ln:e])
    if kind not in('theorem','lemma','example'): return
    m=re.search(r':= by\b',b)
    if m: c=m.start()
    else:
        m=re.search(r'\n  \| ',b)
        if m: c=m.start()
        else:
            m=re.search(r':=\s*\n',b) or re.search(r' := ',b)
            if not m: return
            c=m.start()
    t[ln:e]=[b[:c].rstrip()+' := by '+SO,'']
    open(path,'w').write('\n'.join(t))
def sh(c,**k): return subprocess.run(c,shell=True,capture_output=True,text=True,**k)
for (name,file,old,new,claim) in M:
    if only and name not in only: continue
    sh(f"rm -rf {W}; cp -a {SRC} {W}")
    p=f"{W}/Verif/{file}"; s=open(p).read()
    if s.count(old)!=1:
        print(json.dumps({"name":name,"problem":f"old text occurs {s.count(old)} times"}),flush=True); continue
    open(p,'w').write(s.replace(old,new))
    direct=[]; ok=None; rounds=0
    while True:
        r=sh(f"cd {W} && timeout 900 lake build 2>&1")
        if ok is None: ok=r.returncode==0
        if r.returncode==0: break
        bad=[]
        for m in re.finditer(r'^error: (Verif/\S+?\.lean):(\d+):\d+:',r.stdout,re.M):
            t=open(f"{W}/{m.group(1)}").read().split('\n')
            k,nm,ln=owner(t,int(m.group(2)))
            x=(m.group(1),k,nm,ln)
            if x not in bad: bad.append(x)
        mods=[(f[:-5].replace('/','.'),k,nm) for f,k,nm,_ in bad]
        fresh=[x for x in mods if x not in direct]
        direct+=fresh
        rounds+=1
        if not fresh or rounds>12 or os.environ.get("FAST"): break
        # let the rest compile: leave out the proofs that failed (in the scratch copy only)
        for f,k,nm,ln in sorted(bad,key=lambda x:-x[3]):
            stub(f"{W}/{f}",k,ln)
    full=set()
    for mod,k,nm in direct:
        for n,d in deps.items():
            if d['m']==mod and (n==nm or n.endswith('.'+nm)): full.add(n)
    dep=dependents(full)
    hit=sorted(t for t in man if t in dep)
    print(json.dumps({"name":name,"file":file,"edit":[old,new],"claim":claim,"ok":ok,"rounds":rounds,
      "direct":[f"{m}:{k} {n}" for m,k,n in direct],"manifest":[f"{man[t]}:{t.replace('Serum.Props.','')}" for t in hit]}),flush=True)
