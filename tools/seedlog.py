"""Turns the raw results of the seeded-bug runs (scratch copies outside /verif) into
seeded/LOG.jsonl.  usage: seedlog.py RESULTS.jsonl   (results: id,file,old,new,claim,status,failed)
Property theorems are attributed by Lean's own dependency graph (tools/deps.lean.txt writes /tmp/dep/deps.txt): a theorem counts as failed when its own
proof stops compiling, as `stopped` when its proof uses (transitively) a declaration that does."""
import sys,re,json,glob,os
R='/verif/lean/'
DECL=re.compile(r'^(?:@\[[^\]]*\]\s*)?(?:private |noncomputable |protected )*(theorem|lemma|def|structure|abbrev|inductive|instance)\s+(\S+)')
def decls(txt):
    cur=None;out={}
    for i,l in enumerate(txt.split('\n')):
        m=DECL.match(l)
        if m: cur=m.group(2).rstrip(':') if m.group(1) in('theorem','lemma') else None; cur and out.setdefault(cur,[i,[]])
        elif re.match(r'^(example|end|namespace|section)\b',l) : cur=None
        if cur: out[cur][1].append(l)
    return out
deps={l.split('\t')[0].split('.')[-1]:l.rstrip('\n').split('\t')[1].split(' ') for l in open('/tmp/dep/deps.txt')}
def reach(names):
    names=[n for n in names if not n.startswith('example') and n!='?']
    return {p for p,d in deps.items() if any(x.endswith('.'+n) for x in d for n in names)}
def defn(file,old):
    p=R+'Verif/'+file
    t=open(p).read();k=t.find(old)
    if k<0: return None
    line=t[:k].count('\n')+ (len(old)-len(old.lstrip('\n')))
    best=None
    for i,l in enumerate(t.split('\n')[:line+1]):
        m=DECL.match(l)
        if m:best=m.group(2)
    return best
over=json.load(open('/verif/seeded/tightened.json')) if os.path.exists('/verif/seeded/tightened.json') else {}
def allthm():
    s=set()
    for f in glob.glob(R+'Verif/Props/*.lean'):
        s|=set(re.findall(r'^theorem (C\d\d+_\w+)',open(f).read(),re.M))
    return s
T=allthm()
out=[];seen=set()
for p in sys.argv[1:]:
    for l in open(p):
        r=json.loads(l)
        if r['status'] not in('KILLED','SURVIVED') : continue
        k=r['id']
        if k in over and over[k].get('drop'): continue
        direct=sorted({d for v in r.get('failed',{}).values() for d in v})
        st=sorted(x for x in reach(direct) if x in T and x not in direct)
        e=dict(id=k,definition=r.get('definition') or defn(r['file'],r['old']) or r['file'],file='lean/Verif/'+r['file'],
          edit=f"{r['old'].strip()}  ->  {r['new'].strip()}",claim=r['claim'],
          outcome='caught' if r['status']=='KILLED' else 'survived',
          theorems_failed=direct, property_theorems_stopped=st, theorems_tightened=[])
        if k in over:
            e.update(over[k])
        out=[o for o in out if o['id']!=k]; out.append(e)
open('/verif/seeded/LOG.jsonl','w').write(''.join(json.dumps(e,ensure_ascii=False)+'\n' for e in out))
print(len(out),[ (e['id'],e['definition'],len(e['theorems_failed']),len(e['property_theorems_stopped'])) for e in out])
