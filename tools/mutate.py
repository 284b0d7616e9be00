"""usage: mut.py file.json ; entries {file, defn, old, new, edit, claim}"""
import json,sys,subprocess,re,os,shutil
S='/tmp/scratch/lean'
def sync():
    subprocess.run(['rsync','-a','--delete','--exclude','.lake','/verif/lean/',S+'/'],check=True) if shutil.which('rsync') else cp()
def cp():
    os.makedirs(S,exist_ok=True)
    for root,ds,fs in os.walk('/verif/lean'):
        if '.lake' in ds: ds.remove('.lake')
        rel=os.path.relpath(root,'/verif/lean')
        os.makedirs(os.path.join(S,rel),exist_ok=True)
        for f in fs:
            a=os.path.join(root,f);b=os.path.join(S,rel,f)
            if not os.path.exists(b) or open(a,'rb').read()!=open(b,'rb').read(): shutil.copy(a,b)
if not os.path.exists(S+'/.lake'):
    os.makedirs(S,exist_ok=True); subprocess.run(['cp','-a','/verif/lean/.lake',S+'/'])
def encl(path,line):
    ls=open(path).read().split('\n')
    for i in range(min(line,len(ls))-1,-1,-1):
        m=re.match(r'(?:private |protected |@\[.*?\] *)*(theorem|def|example|instance|abbrev|lemma)\s*([\w.\']*)',ls[i])
        if m: return (m.group(2) or m.group(1))
    return '?'
for e in json.load(open(sys.argv[1])):
    cp()
    p=os.path.join(S,'Verif',e['file']); s=open(p).read()
    if s.count(e['old'])!=e.get('count',1): print('BAD OLD',e['defn'],s.count(e['old'])); continue
    open(p,'w').write(s.replace(e['old'],e['new']))
    r=subprocess.run(['lake','build'],cwd=S,capture_output=True,text=True)
    out=r.stdout+r.stderr
    failed=[];
    for m in re.finditer(r'error: (Verif/[\w/]+\.lean):(\d+)',out):
        n=encl(os.path.join(S,m.group(1)),int(m.group(2)))
        k=m.group(1)[6:-5]+':'+n
        if k not in failed: failed.append(k)
    tight=e.get('tightened',[])
    # What broke: a property theorem, an example (the concrete case became false), or only helpers. After a failure in Lemmas/ the
    # files that import it are not built, so "helper" says nothing about the property theorems themselves.
    kinds=[]
    for k in failed:
        f,n=k.split(':',1)
        kinds.append('property' if re.match(r'C\d\d_',n) else 'example' if n=='example' else 'helper')
    kill='survived' if r.returncode==0 else '/'.join(x for x in ('property','example','helper') if x in kinds)
    modelerr=[f for f in failed if f.startswith('Model/')]
    print(('SURVIVED' if r.returncode==0 else 'killed '+kill),'|',e['defn'],'|',e['edit'],'|',', '.join(failed)[:300], '  MODELERR' if modelerr else '')
    if modelerr: print(out[:1500]); 
    if e.get('log',True) and not modelerr:
        open('/verif/seeded/LOG.jsonl','a').write(json.dumps({"definition":e['defn'],"edit":e['edit'],"claim_broken":e['claim'],"theorems_failed":failed,"kill":kill,"theorems_tightened":tight,**({"note":e["note"]} if "note" in e else {})},ensure_ascii=False)+'\n')
    open(p,'w').write(s)
cp()
