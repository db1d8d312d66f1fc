"""Writes /verif/AXIOMS.md: the axioms each theorem of MANIFEST.json depends on (run after `lake build`)."""
import json,re,subprocess,collections
claims=json.load(open('/verif/MANIFEST.json'))['claims']
names=[t for c in claims for t in c['theorems']]
src='import Verif\n'+'\n'.join('#print axioms '+t for t in names)+'\n'
open('/tmp/ax.lean','w').write(src)
out=subprocess.run(['lake','env','lean','/tmp/ax.lean'],cwd='/verif/lean',text=True,capture_output=True).stdout
ax={}
for m in re.finditer(r"'([^']+)' (does not depend on any axioms|depends on axioms: \[([^\]]*)\])",out):
    ax[m.group(1)]=tuple(sorted(x.strip() for x in m.group(3).split(','))) if m.group(3) else ()
missing=[n for n in names if n not in ax]
groups=collections.defaultdict(list)
for n in names: groups[ax.get(n,('?',))].append(n)
with open('/verif/AXIOMS.md','w') as f:
    f.write('# Axioms of the theorems\n\nPrinted by `#print axioms` (tools/axioms.py) for the %d theorems of MANIFEST.json.\n'%len(names))
    for g in sorted(groups,key=lambda g:(len(g),g)):
        f.write('\n## %s (%d theorems)\n\n'%(', '.join('`%s`'%a for a in g) or 'no axiom',len(groups[g])))
        f.write(', '.join(n.split('.')[-1] for n in groups[g])+'\n')
print(len(names),'theorems; missing',missing[:5],{g:len(v) for g,v in groups.items()})
