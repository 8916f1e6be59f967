#!/usr/bin/env python3
"""Build MANIFEST.json from theorem names (Cnn_...) in lean/Verif/Props and notes below."""
import re,json,pathlib
top = pathlib.Path(__file__).resolve().parent.parent
notes = json.loads((top/'tools/notes.json').read_text())
props = [ json.loads(l) for l in (top/'properties.jsonl').read_text().splitlines() if l.strip() ]
thms = {}
for f in sorted((top/'lean/Verif/Props').glob('*.lean')):
  ns = []
  for line in f.read_text().splitlines():
    m = re.match(r'namespace\s+(\S+)',line)
    if m: ns.append(m.group(1))
    m = re.match(r'end\s+(\S+)',line)
    if m and ns and ns[-1] == m.group(1): ns.pop()
    m = re.match(r'theorem\s+(C\d\d+)_(\S+)',line)
    if m: thms.setdefault(m.group(1),[]).append('.'.join(ns+[m.group(1)+'_'+m.group(2)]))
claims = []
for p in props:
  i = p['id']
  if i not in thms: continue
  st = notes.get(i,{}).get('status','proved')
  claims.append({'property': i,'status': st,'theorems': thms[i],'note': notes.get(i,{}).get('note','')})
(top/'MANIFEST.json').write_text(json.dumps({'claims': claims},indent=1)+'\n')
missing = [ p['id'] for p in props if p['id'] not in thms ]
print(len(claims),'claims;',sum(len(t) for t in thms.values()),'theorems; missing:',' '.join(missing))
