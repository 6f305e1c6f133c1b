#!/usr/bin/env python3
"""Seeded-bug tests.  usage: seed.py mutants.json   (list of {file, old, new, def, edit, claim})
Copies /verif/lean to a scratch directory, applies one edit at a time to a model definition, rebuilds, and
appends one line per edit to /verif/seeded/LOG.jsonl: the theorems whose proof failed, and the property theorems
that can no longer be built."""
import json,sys,subprocess,os,re,glob,shutil
SRC='/verif/lean'; SCR='/tmp/seed/lean'
def sync():
    os.makedirs('/tmp/seed',exist_ok=True)
    subprocess.run(['rsync','-a','--delete',SRC+'/',SCR+'/'],check=True) if shutil.which('rsync') else (shutil.rmtree(SCR,ignore_errors=True),shutil.copytree(SRC,SCR,symlinks=True))
def imports():
    g={}
    for f in glob.glob(SCR+'/Verif/**/*.lean',recursive=True):
        mod=f[len(SCR)+1:-5].replace('/','.')
        g[mod]=[l.split()[1] for l in open(f) if l.startswith('import Verif')]
    return g
def enclosing(f,line):
    ls=open(f).read().split('\n')
    for i in range(min(line,len(ls))-1,-1,-1):
        m=re.match(r'(?:@\[[^\]]*\]\s*)?(?:private |noncomputable |protected )*(theorem|lemma|def|instance|example|abbrev)\b\s*(\S*)',ls[i])
        if m: return (m.group(2) or m.group(1)) if m.group(1)!='example' else 'example'
    return '?'
def cthms(mod):
    f=SCR+'/'+mod.replace('.','/')+'.lean'
    return re.findall(r'^theorem (C\d\d+_\S+)',open(f).read(),re.M)
GRACE=float(os.environ.get('GRACE','45'))
def build():
    """run lake build; once an error has been reported, go on for GRACE seconds, then stop the build"""
    import tempfile,time,signal
    out=tempfile.NamedTemporaryFile('w+',suffix='.log')
    p=subprocess.Popen(['nice','lake','build']+os.environ.get('TARGET','Verif').split(),cwd=SCR,stdout=out,stderr=subprocess.STDOUT,start_new_session=True)
    t0=None
    while p.poll() is None:
        time.sleep(1)
        if t0 is None and 'error: Verif/' in open(out.name).read(): t0=time.time()
        if t0 is not None and time.time()-t0>GRACE:
            os.killpg(p.pid,signal.SIGTERM); time.sleep(2)
            subprocess.run(['pkill','-f',SCR]); p.wait(); return 1,open(out.name).read()
    return p.returncode,open(out.name).read()
muts=json.load(open(sys.argv[1]))
sync(); shutil.rmtree('/tmp/seed/orig',ignore_errors=True); shutil.copytree(SCR+'/Verif','/tmp/seed/orig/Verif'); g=imports()
log='/verif/seeded/LOG.jsonl'
for m in muts:
    f=SCR+'/'+m['file']; src=open('/tmp/seed/orig/'+m['file']).read()
    n=src.count(m['old'])
    if n<1 or (n!=1 and not m.get('all') and not m.get('nth')):
        print('BAD',m['def'],m['edit'],n,flush=True); continue
    if m.get('nth') is not None:
        parts=src.split(m['old']); k=m['nth']
        out=m['old'].join(parts[:k+1])+m['new']+m['old'].join(parts[k+1:])
    else: out=src.replace(m['old'],m['new'])
    open(f,'w').write(out)
    rc,t=build()
    failed=[]
    badmods=set()
    for x in re.finditer(r'error: (Verif/[^:]+\.lean):(\d+):',t):
        badmods.add(x.group(1)[:-5].replace('/','.'))
        e=enclosing(SCR+'/'+x.group(1),int(x.group(2)))
        s=x.group(1)+':'+e
        if s not in failed: failed.append(s)
    if failed and all(x.startswith('Verif/Model/') for x in failed):   # the edited program itself does not compile
        print('STILLBORN',m['def'],'|',m['edit'],flush=True); open(f,'w').write(src); continue
    blocked=set(badmods); ch=True
    while ch:
        ch=False
        for k,v in g.items():
            if k not in blocked and any(i in blocked for i in v): blocked.add(k); ch=True
    direct=[s.split(':')[1] for s in failed]
    bl=[c for b in sorted(blocked-badmods) for c in cthms(b)]
    open(log,'a').write(json.dumps({'definition':m['def'],'edit':m['edit'],'claim_broken':m['claim'],
      'theorems_failed':failed,'property_theorems_blocked':sorted(set(bl)),'build_ok':rc==0,'theorems_tightened':m.get('tightened',[])},ensure_ascii=False)+'\n')
    print('SURVIVED' if rc==0 else 'killed',m['def'],'|',m['edit'],'|',m['claim'],'|',failed[:4],flush=True)
    open(f,'w').write(src)
