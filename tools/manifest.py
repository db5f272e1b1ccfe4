#!/usr/bin/env python3
# Build MANIFEST.json from theorem names C<NN>_* found in lean/Verif/Props
import re,glob,json,os
notes=json.load(open('/verif/tools/notes.json')) if os.path.exists('/verif/tools/notes.json') else {}
thms={}
for f in sorted(glob.glob('/verif/lean/Verif/Props/**/*.lean',recursive=True)):
    ns=[]
    for l in open(f):
        m=re.match(r'namespace\s+(\S+)',l)
        if m: ns.append(m.group(1))
        m=re.match(r'end\s+(\S+)',l)
        if m and ns and ns[-1]==m.group(1): ns.pop()
        m=re.match(r'(?:@\[[^\]]*\]\s*)?theorem\s+((C\d\d\d?)_\S+)',l)
        if m: thms.setdefault(m.group(2),[]).append('.'.join(ns+[m.group(1)]))
claims=[]
for l in open('/verif/properties.jsonl'):
    p=json.loads(l); i=p['id']
    if i not in thms: continue
    n=notes.get(i,{})
    st=n.get('status') or ('partial' if any(t.endswith('_partial') for t in thms[i]) else 'proved')
    claims.append({'property':i,'status':st,'theorems':thms[i],'note':n.get('note','')})
json.dump({'claims':claims},open('/verif/MANIFEST.json','w'),indent=1)
print(len(claims),'claims',sum(len(c['theorems']) for c in claims),'theorems')
