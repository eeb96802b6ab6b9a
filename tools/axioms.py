#!/usr/bin/env python3
"""Writes tools/axioms.md: for every theorem named Cnn_..., the axioms `#print axioms` reports."""
import re,glob,subprocess,json,collections
th=[]
for f in sorted(glob.glob('/verif/lean/Verif/Props/*.lean')):
    for m in re.finditer(r'^(?:protected |private )?theorem (C\d\d+_\w+)',open(f).read(),re.M): th.append(m.group(1))
open('/tmp/ax.lean','w').write('import Verif\n'+'\n'.join('#print axioms PyFlowGo.'+t for t in th)+'\n')
out=subprocess.run(['lake','env','lean','/tmp/ax.lean'],cwd='/verif/lean',capture_output=True,text=True).stdout
out=re.sub(r'\n\s+',' ',out)
g=collections.defaultdict(list)
for m in re.finditer(r"'PyFlowGo\.(\w+)' (?:depends on axioms: \[(.*?)\]|does not depend on any axioms)",out):
    g[m.group(2) or 'none'].append(m.group(1))
assert sum(map(len,g.values()))==len(th),(sum(map(len,g.values())),len(th))
ok={'none'}
for k in g:
    assert k=='none' or set(x.strip() for x in k.split(','))<={'propext','Classical.choice','Quot.sound'},k
with open('/verif/tools/axioms.md','w') as f:
    f.write('\n## 6. Axioms of each theorem\n\nGenerated by tools/axioms.py from `#print axioms`.\n\n')
    for k in sorted(g): f.write('* **%s** (%d theorems): %s\n\n'%(k,len(g[k]),', '.join(sorted(g[k]))))
print({k:len(v) for k,v in g.items()})
