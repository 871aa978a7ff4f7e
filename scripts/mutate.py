#!/usr/bin/env python3
"""Seeded-bug runner.  usage: mutate.py <mutations.json> [scratch dir]
Each mutation is {file, definition, old, new, claim, breaks}: the edit is applied to a scratch copy of lean/ (outside
/verif), the project is rebuilt there, and one JSON line with the theorems that failed is appended to seeded/LOG.jsonl.
`count` (default 1) = which occurrence of `old`."""
import sys,json,os,re,subprocess,shutil
V=os.path.dirname(os.path.abspath(__file__))+'/..'
muts=json.load(open(sys.argv[1]))
S=sys.argv[2] if len(sys.argv)>2 else '/tmp/mut'
log=V+'/seeded/LOG.jsonl'
os.makedirs(S,exist_ok=True)
subprocess.run(['rsync','-a','--delete',V+'/lean/',S+'/'],check=False) if shutil.which('rsync') else subprocess.run('rm -rf %s && cp -r %s/lean %s'%(S,V,S),shell=True,check=True)
def decl_at(path,line):
    L=open(path).read().split('\n')
    for i in range(min(line,len(L))-1,-1,-1):
        m=re.match(r'(?:private |protected |@\[[^\]]*\] ?)*(?:theorem|lemma|def|example|instance|macro|abbrev)\s*(\S*)',L[i])
        if m: return m.group(1) or 'example@%d'%(i+1)
    return '?'
done=set()
if os.path.exists(log):
    for l in open(log):
        if l.strip():
            d=json.loads(l)
            if not (d['survived'] and d['theorems_tightened']): done.add((d['file'],d['edit'],d['survived']))
for m in muts:
    p=S+'/Verif/'+m['file']; src=open(p).read()
    edit='%s  ==>  %s'%(m['old'],m['new'])
    if (m['file'],edit,False) in done or ((m['file'],edit,True) in done and not m.get('tightened')): continue
    k=m.get('count',1); idx=-1
    if 'after' in m:
        idx=src.find(m['after'])
        if idx<0: print('NOANCHOR',m); continue
    for _ in range(k): idx=src.find(m['old'],idx+1)
    if idx<0: print('NOTFOUND',m['file'],m['old']); continue
    open(p,'w').write(src[:idx]+m['new']+src[idx+len(m['old']):])
    r=subprocess.run('nice lake build 2>&1',shell=True,cwd=S,capture_output=True,text=True)
    out=r.stdout
    fails=[];mods=[]
    for e in re.finditer(r'^error: (Verif/\S+?\.lean):(\d+):',out,re.M):
        d=os.path.basename(e.group(1))[:-5]+':'+decl_at(S+'/'+e.group(1),int(e.group(2)))
        if d not in fails: fails.append(d)
    broken=sorted(set(re.findall(r'^- (Verif\.\S+)',out,re.M)))
    open(p,'w').write(src)
    ent=dict(definition=m['definition'],file=m['file'],edit=edit,claim=m['claim'],breaks=m.get('breaks',''),theorems_failed=fails,modules_failed=broken,theorems_tightened=m.get('tightened',[]),survived=not fails)
    open(log,'a').write(json.dumps(ent)+'\n')
    print('SURVIVED' if not fails else 'killed',m['file'],m['definition'],edit[:80].replace('\n',' '),fails[:4],flush=True)
