import json,os,re,subprocess,sys,shutil,time
SRC='/verif/lean'; W='/tmp/mut'; SRC0='/tmp/mut0'; LOG='/verif/seeded/LOG.jsonl'
DECL=re.compile(r'^\s*(?:@\[[^\]]*\]\s*)?(?:private |protected |noncomputable )*(theorem|lemma|def|example|instance|abbrev|structure|inductive)\s+([^\s:({\[]+)?')
def sync():
    os.makedirs(W,exist_ok=True)
    subprocess.run(['rsync','-a','--delete',SRC+'/',W+'/'],check=True) if shutil.which('rsync') else subprocess.run(f'rm -rf {W} && cp -a {SRC} {W}',shell=True,check=True)
def snap():
    subprocess.run(f'rm -rf {SRC0} && cp -a {SRC} {SRC0}',shell=True,check=True)
def enclosing(path,line):
    ls=open(path).read().split('\n')
    for i in range(min(line,len(ls))-1,-1,-1):
        m=DECL.match(ls[i])
        if m: return (m.group(2) or 'example') if m.group(1)!='example' else f'example at {os.path.basename(path)}:{i+1}'
    return path
def claims():
    return {t.split('.')[-1]:c['property'] for c in json.load(open('/verif/MANIFEST.json'))['claims'] for t in c['theorems']}
def thmods():
    d={}
    for root,_,fs in os.walk(SRC+'/Verif'):
        for f in fs:
            p=os.path.join(root,f); mod='Verif.'+os.path.relpath(p,SRC+'/Verif')[:-5].replace('/','.')
            for l in open(p):
                m=DECL.match(l)
                if m and m.group(1) in('theorem','lemma') and m.group(2): d[m.group(2)]=mod
    return d
def run(f,old,new,definition,claim,expect,nth=None):
    p=f'{W}/Verif/{f}'; s=open(p).read(); n=s.count(old)
    if n==0: print('NOTFOUND',definition,repr(old)); return
    if n>1 and nth is None:
        # restrict to the definition body
        m=re.search(r'^(?:def|structure|inductive|abbrev) '+re.escape(definition)+r'\b.*?(?=^(?:/--|/-!|def |structure |inductive |abbrev |namespace|end |variable|section)|\Z)',s,re.S|re.M)
        if not m or m.group(0).count(old)!=1: print('AMBIG',definition,repr(old),n,m and m.group(0).count(old)); return
        s2=s[:m.start()]+m.group(0).replace(old,new)+s[m.end():]
    else:
        s2=s.replace(old,new,1) if nth is None else None
    if not DRY:
        subprocess.run(f'rm -rf {W}/.lake && cp -a {SRC0}/.lake {W}/.lake',shell=True,check=True)
    open(p,'w').write(s2)
    if DRY: open(p,'w').write(s); return
    t=time.time()
    r=subprocess.run(['lake','build','Verif'],cwd=W,capture_output=True,text=True)
    out=r.stdout+r.stderr
    open(p,'w').write(s)
    failed=[];mods=set()
    for m in re.finditer(r'error: (Verif/\S+?\.lean):(\d+):',out):
        open_path=f'{W}/{m.group(1)}'
        if m.group(1)==f'Verif/{f}':
            failed.append('MODEL:'+m.group(2)); continue
        nm=enclosing(open_path,int(m.group(2)))
        if nm not in failed: failed.append(nm)
    for m in re.finditer(r'✖ \[\d+/\d+\] (?:Building|Running) (\S+)',out): mods.add(m.group(1))
    built_not=[]
    # modules not built: no fresh olean
    cl=claims(); tm=thmods()
    okmods=set(re.findall(r'[✔⚠ℹ] \[\d+/\d+\] (?:Built|Replayed|Ran|Building) (\S+)',out))
    # blocked: closure of importers of failed modules
    imp={}
    for root,_,fs in os.walk(SRC+'/Verif'):
        for g in fs:
            q=os.path.join(root,g); mod='Verif.'+os.path.relpath(q,SRC+'/Verif')[:-5].replace('/','.')
            imp[mod]=re.findall(r'^import (Verif\.\S+)',open(q).read(),re.M)
    blocked=set(mods); ch=True
    while ch:
        ch=False
        for k,v in imp.items():
            if k not in blocked and any(x in blocked for x in v): blocked.add(k); ch=True
    direct=[x for x in failed if x in cl]
    viadep=[t for t,c in cl.items() if tm.get(t) in blocked and t not in failed and tm.get(t) not in mods]
    rec={'definition':definition,'file':f'lean/Verif/{f}','edit':f'{old.strip()}  ->  {new.strip()}','claim':claim,'expected':expect,'theorems_failed':failed,
         'claims_blocked':sorted({cl[t] for t in viadep}|{cl[t] for t in direct}),'seconds':round(time.time()-t),'killed':bool(failed) ,'theorems_tightened':[]}
    with open('/tmp/mutw/raw.jsonl','a') as g: g.write(json.dumps(rec,ensure_ascii=False)+'\n')
    if not failed or any(x.startswith('MODEL') for x in failed):
        open('/tmp/mutw/odd.txt','a').write(definition+' '+old+'\n'+out[-1500:]+'\n=====\n')
    print(('KILLED ' if failed else 'SURVIVED '),definition,'|',rec['edit'][:80],'|',failed[:6],rec['seconds'],flush=True)
DRY=len(sys.argv)>2 and sys.argv[2]=='dry'
done=set()
if os.path.exists('/tmp/mutw/raw.jsonl'):
    for l in open('/tmp/mutw/raw.jsonl'):
        d=json.loads(l); done.add((d['definition'],d['edit']))
sync(); snap()
M=[]
exec(open(sys.argv[1]).read())
for m in M:
    if (m[3],f'{m[1].strip()}  ->  {m[2].strip()}') in done: continue
    run(*m)
