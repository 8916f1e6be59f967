#!/usr/bin/env python3
"""Write AXIOMS.txt: the axioms every theorem in the manifest depends on."""
import json,pathlib,re,subprocess,tempfile
top = pathlib.Path(__file__).resolve().parent.parent
names = [ t for c in json.load(open(top/'MANIFEST.json'))['claims'] for t in c['theorems'] ]
with tempfile.NamedTemporaryFile('w',suffix='.lean') as f:
  f.write('import Verif\n' + ''.join(f'#print axioms {n if n.startswith("Netlab.") else "Netlab." + n}\n' for n in names))
  f.flush()
  out = subprocess.run(['lake','env','lean',f.name],cwd=top/'lean',capture_output=True,text=True).stdout
out = re.sub(r'\n\s+',' ',out)
(top/'AXIOMS.txt').write_text(out)
used = sorted({ a for l in re.findall(r'\[([^\]]*)\]',out) for a in re.split(r',\s*',l) })
print(len(names),'theorems,',len(out.splitlines()),'lines; axioms used:',used)
