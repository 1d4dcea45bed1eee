"""Writes MANIFEST.json: theorem names are collected from lean/Verif/Props by their Cnn prefix."""
import re,glob,json,os
here=os.path.dirname(os.path.abspath(__file__))
root=os.path.join(here,'..')
ids=[json.loads(l)['id'] for l in open(root+'/properties.jsonl')]
th={i:[] for i in ids}
for f in sorted(glob.glob(root+'/lean/Verif/Props/*.lean')):
    for m in re.finditer(r'^theorem ((?:C\d\d_)+\w+)',open(f).read(),re.M):
        for i in re.findall(r'C\d\d(?=_)',m.group(1)):
            if i in th: th[i].append('Verif.'+m.group(1))
notes=json.load(open(here+'/manifest_notes.json'))
claims=[]
for i in ids:
    n=notes.get(i,{})
    if not th[i] and not n: continue
    extra=n.get('theorems',[])
    st=n.get('status','proved')
    claims.append(dict(property=i,status=st,theorems=th[i]+extra,note=n.get('note','')))
json.dump(dict(claims=claims),open(root+'/MANIFEST.json','w'),indent=1,ensure_ascii=False)
for c in claims: print(c['property'],c['status'],len(c['theorems']))
