"""Run seeded-bug experiments: tools/mutate.py FILE.json. Each entry: module, definition, old, new, claim, note.
Builds a scratch copy in /tmp/mut; appends to seeded/LOG.jsonl."""
import json,sys,subprocess,shutil,os,re,signal
V="/verif/lean"; M="/tmp/mut/lean"
os.makedirs("/tmp/mut",exist_ok=True)
subprocess.run(["rsync","-a","--delete",V+"/",M+"/"]) if shutil.which("rsync") else (shutil.rmtree(M,ignore_errors=True),subprocess.run(["cp","-a",V,M]))
ents=json.load(open(sys.argv[1]))
orig={}
for e in ents:
    p=f"{M}/Verif/Model/{e['module']}.lean"
    src=orig.setdefault(e['module'],open(p).read())  # from the snapshot: /verif may change meanwhile
    if src.count(e['old'])<1: print("NOT FOUND",e['definition'],e['old']); continue
    k=e.get('occ',0)
    parts=src.split(e['old'])
    new=e['old'].join(parts[:k+1])+e['new']+e['old'].join(parts[k+1:])
    open(p,'w').write(new)
    # stop soon after the first failing module: its errors are enough
    pr=subprocess.Popen("lake build 2>&1",shell=True,cwd=M,stdout=subprocess.PIPE,text=True,start_new_session=True)
    out=[];t=None
    for line in pr.stdout:
        out.append(line)
        if "error: build failed" in line or (e.get('fast',True) and line.startswith("error: Lean exited")):
            os.killpg(pr.pid,signal.SIGTERM); break
    pr.wait(); r="".join(out)
    errs=re.findall(r"error: (Verif/\S+?\.lean):(\d+):",r)
    thms=[];modelerr=False
    for f,l in errs:
        if "/Model/" in f: modelerr=True
        lines=open(f"{M}/{f}").read().split("\n")[:int(l)]
        for x in reversed(lines):
            m=re.match(r"(?:@\[.*?\] )?(?:theorem|lemma|def|example|instance)\s*(\S*)",x)
            if m:
                n=f.split("/")[1]+"/"+f.split("/")[2][:-5]+":"+m.group(1)
                if n not in thms: thms.append(n)
                break
    if modelerr: print("MODEL ERROR",e['definition'],r[:1500]); open(p,'w').write(src); continue
    rec=dict(definition=e['module']+"."+e['definition'],edit=f"{e['old']}  ==>  {e['new']}",claim_broken=e['claim'],theorems_failed=thms,theorems_tightened=[],note=e.get('note',''))
    print(("CAUGHT  " if thms else "SURVIVED"),e['definition'],'|',e['new'],'|',thms[:6],flush=True)
    if thms or e.get('force'):
        open("/verif/seeded/LOG.jsonl","a").write(json.dumps(rec)+"\n")
    else:
        open("/tmp/mut/survived.jsonl","a").write(json.dumps(rec)+"\n")
    open(p,'w').write(src)
