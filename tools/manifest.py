#!/usr/bin/env python3
"""Regenerates MANIFEST.json from the theorem names Cnn_... under lean/Verif/Props and the notes below."""
import re,glob,json,os
root=os.path.dirname(os.path.dirname(os.path.abspath(__file__)))
th={}
for f in sorted(glob.glob(root+'/lean/Verif/Props/*.lean')):
    for m in re.finditer(r'^(?:protected |private )?theorem (C\d\d+)_(\w+)',open(f).read(),re.M):
        th.setdefault(m.group(1),[]).append('PyFlowGo.%s_%s'%(m.group(1),m.group(2)))
notes=json.load(open(root+'/tools/notes.json'))
claims=[]
for l in open(root+'/properties.jsonl'):
    d=json.loads(l); i=d['id']; n=notes.get(i,{})
    st=n.get('status')
    if not st:
        st='partial' if (not th.get(i) or any(t.endswith('_partial') for t in th[i])) else 'proved'
    if not th.get(i) and st!='not_applicable': 
        claims.append({'property':i,'status':'partial','theorems':[],'note':n.get('note','not proved yet')}); continue
    claims.append({'property':i,'status':st,'theorems':th.get(i,[]),'note':n.get('note','')})
json.dump({'claims':claims},open(root+'/MANIFEST.json','w'),indent=1)
from collections import Counter
print(Counter(c['status'] for c in claims), [c['property'] for c in claims if not c['theorems']])
