#!/usr/bin/env python3
"""Write AXIOMS.md: the axioms every property theorem depends on (as printed by Lean)."""
import json,subprocess,re
m=json.load(open('/verif/MANIFEST.json'))
names=[t for c in m['claims'] for t in c['theorems']]
src="import Verif\n"+"".join(f"#print axioms {n}\n" for n in names)
open('/tmp/axioms_all.lean','w').write(src)
out=subprocess.run(['lake','env','lean','/tmp/axioms_all.lean'],cwd='/verif/lean',capture_output=True,text=True).stdout
out=re.sub(r'\n\s+',' ',out)
groups={}
for l in out.splitlines():
    a=re.match(r"'(.*)' depends on axioms: \[(.*)\]",l)
    b=re.match(r"'(.*)' does not depend on any axioms",l)
    if a: groups.setdefault(a.group(2),[]).append(a.group(1))
    elif b: groups.setdefault('none',[]).append(b.group(1))
    else: print('??',l)
with open('/verif/AXIOMS.md','w') as f:
    f.write("# Axioms per property theorem\n\nGenerated by tools/mkaxioms.py from `#print axioms`.\n")
    for g,ns in sorted(groups.items()):
        f.write(f"\n## {g}\n\n"+"".join(f"* `{n}`\n" for n in ns))
print({g:len(v) for g,v in groups.items()},len(names))
