#!/usr/bin/env python3
"""List the functions of /repo cited by each module of the model in DESIGN.md."""
import ast,collections,pathlib,re
top = pathlib.Path(__file__).resolve().parent.parent
repo = pathlib.Path('/repo')
funcs = {}
def load(f):
  if f not in funcs:
    res = []
    if f.endswith('.py'):
      for n in ast.walk(ast.parse((repo/f).read_text())):
        if isinstance(n,(ast.FunctionDef,ast.AsyncFunctionDef)):
          res.append((n.lineno,n.end_lineno,n.name))
    funcs[f] = res
  return funcs[f]

cover = collections.defaultdict(lambda: collections.defaultdict(set))
for m in sorted((top/'lean/Verif/Model').glob('*.lean')):
  for c in re.finditer(r'`(netsim/[^`:\s]+\.\w+):(\d+)(?:-(\d+))?`((?:,\s+`\d+(?:-\d+)?`)*)',m.read_text()):
    f = c.group(1)
    if not (repo/f).exists(): continue
    rngs = [(int(c.group(2)),int(c.group(3) or c.group(2)))]
    rngs += [(int(a),int(b or a)) for a,b in re.findall(r'`(\d+)(?:-(\d+))?`',c.group(4))]
    for lo,hi in rngs:
      for s,e,n in load(f):
        if s <= hi and lo <= e: cover[m.stem][f].add(n)
      cover[m.stem][f]
cited = { f for fs in cover.values() for f in fs }
out = ['| module | modelled functions |','|--------|--------------------|']
for m,fs in cover.items():
  out.append(f'| `{m}` | ' + '; '.join(f'`{f[7:]}`: ' + (', '.join(sorted(x)) or '(data)') for f,x in sorted(fs.items())) + ' |')
rest = sorted(str(p.relative_to(repo))[7:] for p in (repo/'netsim').rglob('*.py') if str(p.relative_to(repo)) not in cited)
out += ['','Python files of which nothing is modelled: ' + ', '.join(f'`{f}`' for f in rest if not f.endswith('__init__.py')) + '.']

d = top/'DESIGN.md'
a,b = '<!-- coverage -->','<!-- /coverage -->'
t = d.read_text()
d.write_text(t[:t.index(a)+len(a)] + '\n' + '\n'.join(out) + '\n' + t[t.index(b):])
