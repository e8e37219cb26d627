#!/usr/bin/env python3
"""Seeded-bug runner. usage: seed.py edits.json [quick]
'quick' first builds only a few Props modules that mention the definition, and everything only if these still prove.
Copies /verif/lean to a scratch directory, applies each edit alone, rebuilds, and logs which theorems
fail. Each edit: {file, def, old, new, edit, claim:[ids], breaks}. Appends to seeded/LOG.jsonl."""
import json,sys,os,re,subprocess,glob,shutil
SC='/tmp/seed/lean'
def sync():
    os.makedirs('/tmp/seed',exist_ok=True)
    subprocess.run(['rsync','-a','--delete','/verif/lean/',SC+'/'],check=True) if shutil.which('rsync') else (subprocess.run(['rm','-rf',SC]),subprocess.run(['cp','-a','/verif/lean',SC],check=True))
DECL=re.compile(r'^(?:@\[[^\]]*\]\s*)?(?:private |protected |noncomputable )*(?:theorem|lemma|def|instance|abbrev|structure|example|inductive)\s*(\S*)')
def decls(path):
    out=[];L=open(path).read().split('\n')
    for n,l in enumerate(L,1):
        m=DECL.match(l)
        if m: out.append((n,m.group(1)))
    return out,L
QUICK=len(sys.argv)>2 and sys.argv[2]=='quick'
def targets(e,limit=5):
    # modules of Props that mention the edited definition, or else definitions that use it: the smallest first
    names={e['def'].split('.')[-1]}
    for depth in range(4):
        hit=[]
        for f in glob.glob(SC+'/Verif/Props/*.lean'):
            t=set(re.findall(r"[\w'₀-₉]+",open(f).read()))
            if names&t: hit.append((os.path.getsize(f),'Verif.Props.'+os.path.basename(f)[:-5]))
        if hit:
            hit=[m for _,m in sorted(hit)]
            return [hit[i:i+limit] for i in range(0,min(len(hit),2*limit),limit)]
        new=set()
        for f in glob.glob(SC+'/Verif/Model/*.lean'):
            ds,L=decls(f)
            for i,(n,d) in enumerate(ds):
                end=ds[i+1][0]-1 if i+1<len(ds) else len(L)
                if names&set(re.findall(r"[\w'₀-₉]+",'\n'.join(L[n-1:end]))): new.add(d.split('.')[-1])
        names=new
    return []
def run(e):
    p=SC+'/Verif/'+e['file']
    src=open(p).read()
    if src.count(e['old'])<1: return None,'old text not found'
    if src.count(e['old'])>1 and not e.get('first'): return None,'old text not unique'
    open(p,'w').write(src.replace(e['old'],e['new'],1))
    try:
        r=None
        if QUICK:
            for group in ([e['targets']] if e.get('targets') else targets(e)):
                r=subprocess.run(['lake','build']+group,cwd=SC,capture_output=True,text=True,timeout=3000)
                if r.returncode!=0: break
        if r is None or r.returncode==0: r=subprocess.run(['lake','build'],cwd=SC,capture_output=True,text=True,timeout=3000)
        out=r.stdout+r.stderr
    except subprocess.TimeoutExpired: out='error: timeout'; r=None
    open(p,'w').write(src)
    errs=set()
    for m in re.finditer(r'error: (?:\./)?(Verif/\S+?\.lean):(\d+):',out):
        errs.add((m.group(1),int(m.group(2))))
    failed=set()
    for f,ln in errs:
        ds,_=decls(SC+'/'+f)
        name=None
        for n,d in ds:
            if n<=ln: name=d
        failed.add((f,name))
    # propagate to named claims textually
    bodies={}
    for f in glob.glob(SC+'/Verif/**/*.lean',recursive=True):
        ds,L=decls(f)
        for i,(n,d) in enumerate(ds):
            end=ds[i+1][0]-1 if i+1<len(ds) else len(L)
            bodies.setdefault(d,'') ; bodies[d]+='\n'.join(L[n-1:end])
    bad={d for _,d in failed}
    toks={d:{q for t in re.findall(r"[\w'.₀-₉«»]+",b) for q in ([t]+t.split('.')+[t.rsplit('.',1)[0]])} for d,b in bodies.items() if d}
    ch=True
    isTh={d for d in toks if re.search(r'\b(theorem|lemma)\b',bodies[d][:80])}
    while ch:
        ch=False
        for d in isTh:
            if d not in bad and any((b in toks[d] or b.split('.')[-1] in toks[d]) for b in bad if b):
                bad.add(d); ch=True
    direct=sorted(x for _,x in failed if x)
    cl=sorted(x for x in bad if x and re.match(r'C\d\d+_',x))
    modelfail=[f for f,_ in failed if '/Model/' in f]
    return (direct,cl,modelfail,r is not None and r.returncode==0,out),None
if __name__=='__main__':
    sync()
    for e in json.load(open(sys.argv[1])):
        res,err=run(e)
        if err: print('SKIP',e['def'],e['edit'],err,flush=True); continue
        direct,cl,mf,ok,out=res
        caught=any(c.split('_')[0] in e['claim'] for c in cl)
        print(('OK  ' if caught else 'SURVIVED')+(' MODELFAIL' if mf else ''),e['def'],'|',e['edit'],'|',e['claim'],'|',cl,'| direct',direct[:6],flush=True)
        if not cl: print(out[-1500:] if not ok else 'BUILD OK',flush=True)
        if not mf:
            with open('/verif/seeded/LOG.jsonl','a') as f:
                f.write(json.dumps({'definition':e['file']+' '+e['def'],'edit':e['edit'],'claim_broken':e['claim'],'english':e.get('breaks',''),'theorems_failed':cl or direct,'theorems_tightened':e.get('tightened',[]),'caught':caught})+'\n')
