#!/usr/bin/env python3
"""Regenerate MANIFEST.json and lean/Verif.lean from the theorems named Cnn_* under lean/Verif/Props.
Status: 'partial' if the property has no full proof (listed in PARTIAL), else 'proved'."""
import re,glob,json,os
root=os.path.join(os.path.dirname(__file__),'..')
os.chdir(root)
notes=json.load(open('tools/notes.json')) if os.path.exists('tools/notes.json') else {}
thm={}
doc={}
for f in sorted(glob.glob('lean/Verif/Props/*.lean')):
    for m in re.finditer(r'^theorem (C(\d\d+)_[A-Za-z0-9_\']+)',open(f).read(),re.M):
        thm.setdefault('C'+m.group(2),[]).append('XRD.'+m.group(1))
for f in sorted(glob.glob('lean/Verif/Props/*.lean')):
    for m in re.finditer(r'/--((?:(?!-/).)*?)-/\s*theorem (C\d\d+_[A-Za-z0-9_\']+)',open(f).read(),re.S):
        doc['XRD.'+m.group(2)]=re.sub(r'\s+',' ',m.group(1)).strip()
def mknote(ts,st):
    if st=='proved':
        return 'Proved in full. '+' '.join('[%s] %s'%(t[4:],doc[t]) for t in ts if t in doc)
    a=[t for t in ts if t.endswith('_partial')]; b=[t for t in ts if t.endswith('_fails')]
    c=[t for t in ts if t not in a and t not in b]
    s=''
    if b: s+='False of the code as stated, with a proved counterexample: '+' '.join('[%s] %s'%(t[4:],doc.get(t,'')) for t in b)+' '
    if a: s+='Proved part: '+' '.join('[%s] %s'%(t[4:],doc.get(t,'')) for t in a)+' '
    if c: s+='Also proved in full: '+', '.join(t[4:] for t in c)+'.'
    return s.strip()
claims=[]
for l in open('properties.jsonl'):
    p=json.loads(l)['id']
    ts=thm.get(p,[])
    n=notes.get(p,{})
    st=n.get('status')
    if st is None:
        st='partial' if any(t.endswith('_partial') or t.endswith('_fails') for t in ts) or not ts else 'proved'
    claims.append({'property':p,'status':st,'theorems':ts,'note':n.get('note',mknote(ts,st) if ts else 'not yet proved')})
json.dump({'claims':claims},open('MANIFEST.json','w'),indent=1)
mods=sorted(f[len('lean/'):-5].replace('/','.') for f in glob.glob('lean/Verif/**/*.lean',recursive=True))
open('lean/Verif.lean','w').write(''.join('import %s\n'%m for m in mods))
print({s:sum(c['status']==s for c in claims) for s in ('proved','partial','not_applicable')}, 'theorems',sum(len(c['theorems']) for c in claims))
