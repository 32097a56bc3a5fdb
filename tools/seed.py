#!/usr/bin/env python3
"""seed.py muts.py : run every mutant in a scratch copy; append JSON lines to out file"""
import sys, subprocess, re, json, os, time, importlib.util
SRC='/verif/lean'; W='/tmp/seed/lean'
spec=importlib.util.spec_from_file_location('m',sys.argv[1]); m=importlib.util.module_from_spec(spec); spec.loader.exec_module(m)
OUT=sys.argv[2] if len(sys.argv)>2 else '/tmp/w/seedlog.jsonl'
deps={}
for l in open('/tmp/w/deps.tsv'):
    n,full,st=l.rstrip('\n').split('\t'); deps[n.split('.')[-1]]=(set(full.split()))
import threading
def watch():
    while True:
        time.sleep(3)
        for p in os.listdir('/proc'):
            if not p.isdigit(): continue
            try:
                if not os.readlink(f'/proc/{p}/cwd').startswith('/tmp/seed'): continue
                if open(f'/proc/{p}/comm').read().strip()!='lean': continue
                rss=int(open(f'/proc/{p}/statm').read().split()[1])*4096
                et=time.time()-os.stat(f'/proc/{p}').st_ctime
                if rss>4.5e9 or et>700: os.kill(int(p),9)
            except Exception: pass
threading.Thread(target=watch,daemon=True).start()
def sync():
    os.makedirs('/tmp/seed',exist_ok=True)
    subprocess.run('rm -rf '+W+' && cp -a '+SRC+' '+W,shell=True,check=True)
declre=re.compile(r'^\s*(?:@\[[^\]]*\]\s*)?(?:private |protected |noncomputable )*(theorem|lemma|def|abbrev|instance|inductive|structure|example)\b\s*([^\s:({\[]*)')
def decl_at(path,line):
    ls=open(path).read().split('\n')
    for i in range(line-1,-1,-1):
        mm=declre.match(ls[i])
        if mm: return (mm.group(1),mm.group(2) or f'{mm.group(1)}@{i+1}')
    return ('?','?')
done=set()
if os.path.exists(OUT):
    for l in open(OUT): done.add(json.loads(l)['key'])
for (f,d,old,new,claim) in m.MUTS:
    key=f+'|'+old+'|'+new
    if key in done: continue
    sync()
    p=f'{W}/Verif/{f}'
    s=open(p).read()
    if s.count(old)!=1:
        # allow restricting to a definition: search after 'def d'
        i=s.find('def '+d+' ')
        j=s.find(old,i) if i>=0 else -1
        if j<0: print('NOT APPLICABLE',d,repr(old),s.count(old),flush=True); continue
        s=s[:j]+new+s[j+len(old):]
    else: s=s.replace(old,new)
    open(p,'w').write(s)
    t=time.time()
    try:
        r=subprocess.run('timeout 1500 lake build',shell=True,cwd=W,capture_output=True,text=True)
        out=r.stdout+r.stderr
    except Exception as e: out='error: '+str(e)
    failed=[];mods=[]
    for mm in re.finditer(r'^error: (Verif/[\w/]+\.lean):(\d+):\d+',out,re.M):
        k=decl_at(f'{W}/{mm.group(1)}',int(mm.group(2)))
        n=k[1] if k[0]!='example' else f'example in {mm.group(1)}:{mm.group(2)}'
        if (n,mm.group(1)) not in failed: failed.append((n,mm.group(1)))
    for mm in re.finditer(r'^- (Verif\.[\w.]+)',out,re.M): mods.append(mm.group(1))
    fn={n for n,_ in failed}
    claims=[]
    for c,full in deps.items():
        if any(x.split('.')[-1] in fn or any(x.endswith('.'+y) for y in fn) for x in full): claims.append(c)
    ok='Build completed successfully' in out
    rec=dict(key=key,definition=d,file='Verif/'+f,edit=f'`{old.strip()}` -> `{new.strip()}`',claim=claim,survived=ok,
      failed=[n for n,_ in failed],failed_files=sorted({x for _,x in failed}),unbuilt=mods,claims=sorted(claims),secs=round(time.time()-t))
    if not ok and not failed: rec['tail']=out[-1500:]
    open(OUT,'a').write(json.dumps(rec)+'\n')
    print(('SURVIVED ' if ok else 'killed   ')+d, rec['edit'][:90], '|', ','.join(rec['failed'][:6]), '| claims', len(claims), rec['secs'],'s',flush=True)
