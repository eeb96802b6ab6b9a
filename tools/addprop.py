"""usage: addprop.py spec.json -- appends a property to props.py, design_plan.py and notes.json.
spec: {id,title,statement,quantifier,why,anchors,plan,note}"""
import json,sys
d=json.load(open(sys.argv[1]))
for x in (d if isinstance(d,list) else [d]):
    p=open('/verif/tools/props.py').read()
    if f"p('{x['id']}'" in p or f'"{x["id"]}"' in p: print('already',x['id']); continue
    i=p.index("with open('/verif/properties.jsonl'")
    p=p[:i]+'p(%s)\n'%','.join(json.dumps(x[k],ensure_ascii=False) for k in('id','title','statement','quantifier','why','anchors'))+p[i:]
    open('/verif/tools/props.py','w').write(p)
    q=open('/verif/tools/design_plan.py').read()
    i=q.index('}\nout=[')
    q=q[:i]+',\n%r:%r'%(x['id'],x['plan'])+q[i:]
    open('/verif/tools/design_plan.py','w').write(q)
    n=json.load(open('/verif/tools/notes.json'))
    n[x['id']]={'note':x['note']}
    json.dump(n,open('/verif/tools/notes.json','w'),indent=0,ensure_ascii=False)
