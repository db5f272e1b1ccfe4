#!/usr/bin/env python3
"""usage: mut.py mutations.json ; each: {file, old, new, claim, def, also?, targets?, tightened?}"""
import json,sys,subprocess,os,re,shutil,signal,time
muts=json.load(open(sys.argv[1]))
W='/tmp/mut/lean'
os.makedirs('/tmp/mut',exist_ok=True)
subprocess.run(['rsync','-a','--delete','/verif/lean/',W+'/']) if shutil.which('rsync') else (shutil.rmtree(W,ignore_errors=True),shutil.copytree('/verif/lean',W,symlinks=True))
def thm_at(f,line):
    ls=open(f).read().split('\n')
    for i in range(min(line,len(ls))-1,-1,-1):
        m=re.match(r'(?:@\[[^\]]*\]\s*)?(?:private\s+)?(theorem|lemma|def|example|instance|abbrev|structure|inductive)\s*(\S*)',ls[i])
        if m: return m.group(2) if m.group(1)!='example' else 'example@%s:%d'%(os.path.basename(f),i+1)
    return '?'
imports={}
def deps():
    r={}
    for d,_,fs in os.walk(W+'/Verif'):
        for f in fs:
            if f.endswith('.lean'):
                p=os.path.join(d,f); mod=p[len(W)+1:-5].replace('/','.')
                r[mod]=[l.split()[1] for l in open(p) if l.startswith('import Verif')]
    return r
def restore():
    shutil.rmtree(W+'/.lake/build',ignore_errors=True)
    subprocess.run(['cp','-a','/tmp/mut/build',W+'/.lake/build'],check=True)
shutil.rmtree('/tmp/mut/build',ignore_errors=True)
subprocess.run(['cp','-a',W+'/.lake/build','/tmp/mut/build'],check=True)
def build(targets):
    """Build until the first module fails; the modules running then get a few seconds more."""
    o=open('/tmp/mut/out','w')
    q=subprocess.Popen(['lake','build']+targets,cwd=W,stdout=o,stderr=subprocess.STDOUT,start_new_session=True)
    t=time.time(); first=None
    while q.poll() is None:
        time.sleep(1)
        out=open('/tmp/mut/out',errors='replace').read()
        if first is None and re.search(r'error: Verif/\S+?\.lean:\d+:',out): first=time.time()
        if first and time.time()-first>8 or time.time()-t>1500:
            os.killpg(q.pid,signal.SIGKILL); q.wait(); break
    out=open('/tmp/mut/out',errors='replace').read()
    return out if first or q.returncode==0 or re.search(r'^- Verif',out,re.M) else out+'TIMEOUT'
for m in muts:
    p=os.path.join(W,m['file'])
    s=open(p).read()
    if s.count(m['old'])<1:
        print('NOT FOUND',m['file'],m['old']); continue
    open(p,'w').write(s.replace(m['old'],m['new'],1))
    also=[]   # the same edit in the models that repeat the definition
    for f in m.get('also',[]):
        q=os.path.join(W,f); o=open(q).read()
        if m['old'] in o: also.append((q,o)); open(q,'w').write(o.replace(m['old'],m['new'],1))
        else: print('NOT FOUND',f,m['old'])
    t=time.time()
    out=build(m.get('targets',[]))
    failed=[]
    for mm in re.finditer(r'error: (Verif/\S+?\.lean):(\d+):',out):
        n=thm_at(os.path.join(W,mm.group(1)),int(mm.group(2)))
        if n not in failed: failed.append(n)
    bad=set(mm.group(1) for mm in re.finditer(r'^- (Verif\S*)',out,re.M))
    bad|=set(mm.group(1).replace('/','.') for mm in re.finditer(r'error: (Verif/\S+?)\.lean:\d+:',out))
    if not failed: failed=[x+' (evaluation does not end)' for x in sorted(bad)]
    D=deps(); blocked=set(bad); ch=True
    while ch:
        ch=False
        for k,v in D.items():
            if k not in blocked and any(x in blocked for x in v): blocked.add(k); ch=True
    blockedProps=sorted(x for x in blocked if '.Props.' in x and x not in bad)
    for q,o in also: open(q,'w').write(o)
    open(p,'w').write(s); restore()
    rec={'definition':m['def'],'edit':m.get('edit') or (m['old'].strip()+'  =>  '+m['new'].strip()),'claim':m['claim'],'failed':failed,'blocked_modules':blockedProps,'tightened':m.get('tightened',[])}
    print(('KILLED ' if failed or 'TIMEOUT' in out else 'SURVIVED '),m['def'],'|',m['claim'],'|',failed[:8],'|',blockedProps,'%.0fs'%(time.time()-t),flush=True)
    if not failed: print(out[-500:])
    with open('/verif/seeded/LOG.jsonl','a') as f: f.write(json.dumps(rec)+'\n')
