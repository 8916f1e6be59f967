#!/usr/bin/env python3
"""Apply seeded bugs to a scratch copy of the model and log which theorems stop proving.

usage: mutate.py FILE.json   with a list of {module, definition, old, new, claim, (tightened)}
A mutation replaces the single occurrence of `old` in lean/Verif/<module>.lean.
"""
import fcntl,json,re,shutil,subprocess,sys,pathlib
top = pathlib.Path(__file__).resolve().parent.parent
scratch = pathlib.Path('/root/mut')
log = top/'seeded/LOG.jsonl'
scratch.mkdir(exist_ok=True)
lock = open('/root/mut.lock','w'); fcntl.flock(lock,fcntl.LOCK_EX)   # one run at a time: the scratch copy is shared

def sync():
  src,dst = top/'lean',scratch/'lean'
  if not dst.exists():
    shutil.copytree(src,dst,symlinks=True)
  new = { f.relative_to(src) for f in src.rglob('*.lean') if '.lake' not in f.parts }
  old = { f.relative_to(dst) for f in dst.rglob('*.lean') if '.lake' not in f.parts }
  for f in old - new: (dst/f).unlink()
  for f in new:
    if f not in old or (dst/f).read_bytes() != (src/f).read_bytes():
      (dst/f).parent.mkdir(parents=True,exist_ok=True)
      (dst/f).write_bytes((src/f).read_bytes())

def build():
  r = subprocess.run(['lake','build'],cwd=scratch/'lean',capture_output=True,text=True)
  return r.returncode, r.stdout+r.stderr

def enclosing(path,line):
  name = None
  for i,l in enumerate(path.read_text().splitlines(),1):
    if i > line: break
    m = re.match(r'\s*(?:@\[[^\]]*\]\s*)?(?:private\s+)?(?:theorem|lemma|def|example|instance|abbrev)\s*(\S+)?',l)
    if m: name = m.group(1) if m.group(1) and m.group(1) != ':' else 'example'
  return name or '?'

def imports(mod):
  p = top/'lean'/(mod.replace('.','/')+'.lean')
  return re.findall(r'^import (Verif\.\S+)',p.read_text(),re.M) if p.exists() else []

def claims_blocked(failed):
  """property theorems in modules that (transitively) import a failed module"""
  memo = {}
  def bad(m):
    if m not in memo:
      memo[m] = m in failed or any(bad(i) for i in imports(m))
    return memo[m]
  out = []
  for f in sorted((top/'lean/Verif/Props').glob('*.lean')):
    m = f'Verif.Props.{f.stem}'
    if any(bad(i) for i in imports(m)):
      out.append(m)
  return out

for mu in json.load(open(sys.argv[1])):
  sync()
  p = scratch/'lean/Verif'/(mu['module']+'.lean')
  s = p.read_text()
  if s.count(mu['old']) != 1:
    print('SKIP (occurrences: %d): %s' % (s.count(mu['old']),mu['old'])); continue
  p.write_text(s.replace(mu['old'],mu['new']))
  rc,out = build()
  thms,mods,modelbroken = [],set(),[]
  for f,l in re.findall(r'^error: (Verif/\S+?\.lean):(\d+):\d+',out,re.M):
    mods.add(f[:-5].replace('/','.'))
    n = enclosing(scratch/'lean'/f,int(l))
    if f.startswith('Verif/Model'): modelbroken.append(n)
    if n not in thms: thms.append(n)
  if modelbroken: print('MODEL DOES NOT COMPILE',modelbroken, mu['old']); continue
  if rc and not thms:                                               # no theorem failed: the prover was killed (out of memory)
    print('INCONCLUSIVE',mu['definition'],re.findall(r'^error: (?!build failed).*',out,re.M)[:3]); continue
  blocked = claims_blocked(mods)
  rec = {'definition': mu['definition'],'edit': f"{mu['old'].strip()}  ==>  {mu['new'].strip()}",'claim': mu['claim'],
         'failed': thms,'modules_blocked': blocked,'tightened': mu.get('tightened',[])}
  print('SURVIVED' if rc == 0 else 'killed',mu['definition'],'|',rec['edit'][:100],'|',thms[:4],'| blocked',len(blocked))
  with log.open('a') as fh: fh.write(json.dumps(rec)+'\n')
sync()
