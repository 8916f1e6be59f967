#!/usr/bin/env python3
"""Check that every model citation of the form `netsim/x.py:a-b` (`sym`) is plausible:
the file exists, the range is inside the file, and the symbol occurs within the range."""
import re,sys,pathlib
root = pathlib.Path('/repo')
bad = 0; n = 0; nodef = 0
for f in sorted(pathlib.Path(__file__).resolve().parent.parent.glob('lean/Verif/**/*.lean')):
  text = f.read_text()
  for m in re.finditer(r'`(?:/repo/)?((?:netsim|docs)/[\w/.\-]+):(\d+)(?:-(\d+))?`(?:\s*\(`([\w.]+)`)?',text):
    n += 1
    path,a,b,sym = m.group(1),int(m.group(2)),int(m.group(3) or m.group(2)),m.group(4)
    p = root / path
    line = text[:m.start()].count('\n')+1
    if not p.is_file():
      print(f'{f.name}:{line}: no file {path}'); bad += 1; continue
    src = p.read_text().split('\n')
    if not (1 <= a <= b <= len(src)):
      print(f'{f.name}:{line}: bad range {path}:{a}-{b}'); bad += 1; continue
    if sym:
      s = sym.split('.')[-1]
      defs = [ i+1 for i,l in enumerate(src) if re.match(rf'\s*(def|class)\s+{re.escape(s)}\b',l) ]
      if defs:
        # inside the cited range, or the range is a part of the function
        if not any(a <= d <= b for d in defs):
          nxt = [ i+1 for i,l in enumerate(src) if re.match(r'(def|class)\s',l) ]
          ok = any(d < a and not any(d < x <= a for x in nxt) for d in defs)
          if not ok:
            print(f'{f.name}:{line}: {s} is defined at {defs}, cited {path}:{a}-{b}'); bad += 1
      elif not any(s in l for l in src[a-1:b]):
        print(f'{f.name}:{line}: {s} does not occur in {path}:{a}-{b}'); bad += 1
  # definitions without a citation
  if '/Model/' in str(f):
    for m in re.finditer(r'(?:/--((?:(?!-/).)*)-/\s*)?(?:@\[[^\]]*\]\s*)?^(?:partial |private |protected )?(def|structure|inductive|abbrev)\s+(\S+)',text,re.S|re.M):
      doc = m.group(1) or ''
      if 'netsim/' not in doc and 'model-only' not in doc.lower():
        nodef += 1
        print(f'{f.name}: {m.group(3)}: no citation')
print(f'{n} citations, {bad} bad, {nodef} definitions without citation')
