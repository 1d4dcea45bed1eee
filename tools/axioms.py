import json,subprocess,re
m=json.load(open('/verif/MANIFEST.json'))
names=[t for c in m['claims'] for t in c['theorems']]
src="import Verif\nopen Verif\n"+"".join(f"#print axioms {n}\n" for n in names)
open('/tmp/ax.lean','w').write(src)
out=subprocess.run(['lake','env','lean','/tmp/ax.lean'],cwd='/verif/lean',capture_output=True,text=True).stdout
out=re.sub(r'\n\s+',' ',out)
from collections import defaultdict
d=defaultdict(list)
for n,a in re.findall(r"'([\w.]+)' depends on axioms: \[(.*?)\]",out): d[', '.join(sorted(a.split(', ')))].append(n.replace('Verif.',''))
for n in re.findall(r"'([\w.]+)' does not depend on any axioms",out): d['none'].append(n.replace('Verif.',''))
print(sum(map(len,d.values())),len(names))
with open('/verif/AXIOMS.md','w') as f:
    f.write("# Axioms of the theorems named in MANIFEST.json\n\nFrom `#print axioms`, grouped by the set of axioms.\n")
    for k in sorted(d): f.write(f"\n## {k}\n\n"+", ".join(sorted(d[k]))+"\n")
