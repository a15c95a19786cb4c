import re,glob,collections
d=collections.defaultdict(set)
for f in glob.glob('/verif/lean/Verif/**/*.lean',recursive=True):
    ns=[]
    for line in open(f):
        m=re.match(r'\s*namespace\s+(\S+)',line)
        if m: ns.append(m.group(1))
        m=re.match(r'\s*end\s+(\S+)\s*$',line)
        if m and ns and ns[-1]==m.group(1): ns.pop()
        m=re.match(r'\s*(?:@\[[^\]]*\]\s*)?(private\s+)?(?:noncomputable\s+)?(?:theorem|def|lemma|structure|abbrev|inductive)\s+(\S+)',line)
        if m and not m.group(1): d['.'.join(ns+[m.group(2)])].add(f)
for k,v in d.items():
    if len(v)>1: print(k,v)
