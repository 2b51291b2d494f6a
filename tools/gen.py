#!/usr/bin/env python3
"""Regenerate MANIFEST.json, lean/Verif/Axioms.lean and lean/Verif.lean from the property theorems.

Property theorems are the ones named Cnn_... in lean/Verif/**/*.lean. STATUS gives status and note per property.
"""
import glob, json, os, re
ROOT = os.path.dirname(os.path.dirname(os.path.abspath(__file__)))
LEAN = os.path.join(ROOT, 'lean')
exec(open(os.path.join(ROOT, 'tools', 'status.py')).read())  # defines STATUS
thms = {}
mods = []
for path in sorted(glob.glob(os.path.join(LEAN, 'Verif', '**', '*.lean'), recursive=True)):
    mod = os.path.relpath(path, LEAN)[:-5].replace('/', '.')
    if mod == 'Verif.Axioms':
        continue
    mods.append(mod)
    ns = ''
    for line in open(path):
        m = re.match(r'namespace (\S+)', line)
        if m:
            ns = m.group(1) + '.' if not ns else ns + m.group(1) + '.'
        m = re.match(r'end (\S+)', line)
        if m and ns.endswith(m.group(1) + '.'):
            ns = ns[:-len(m.group(1)) - 1]
        m = re.match(r'(?:protected )?theorem (C\d\d\d?_\w+)', line)
        if m:
            thms.setdefault(m.group(1).split('_')[0], []).append(ns + m.group(1))
props = [json.loads(l) for l in open(os.path.join(ROOT, 'properties.jsonl'))]
claims = []
for p in props:
    i = p['id']
    st, note = STATUS.get(i, ('partial', 'not proved yet'))
    claims.append({'property': i, 'status': st, 'theorems': thms.get(i, []), 'note': note})
    if not thms.get(i):
        print('no theorem for', i)
for i in thms:
    if i not in {p['id'] for p in props}:
        print('theorem without property', i)
json.dump({'claims': [c for c in claims if c['theorems'] or c['status'] == 'not_applicable']}, open(os.path.join(ROOT, 'MANIFEST.json'), 'w'), indent=1)
with open(os.path.join(LEAN, 'Verif', 'Axioms.lean'), 'w') as f:
    for m in mods:
        if m.endswith('Props') or 'Props' in m:
            f.write('import %s\n' % m)
    f.write('/-\nAxioms used by every property theorem (generated by tools/gen.py).\n-/\n')
    for i in sorted(thms, key=lambda x: int(x[1:])):
        for t in thms[i]:
            f.write('#print axioms %s\n' % t)
with open(os.path.join(LEAN, 'Verif.lean'), 'w') as f:
    for m in mods + ['Verif.Axioms']:
        f.write('import %s\n' % m)
# Findings in DESIGN.md: the theorems named Cnn_..._fails with their comments.
found = []
for path in glob.glob(os.path.join(LEAN, 'Verif', '**', '*.lean'), recursive=True):
    for m in re.finditer(r'/--((?:(?!-/).)*?)-/\s*theorem (C\d+_\w*fails\w*)', open(path).read(), re.S):
        text = ' '.join(m.group(1).replace('**', '').split())
        found.append((int(m.group(2)[1:3]), m.group(2), os.path.relpath(path, os.path.join(LEAN, 'Verif')), text))
design = os.path.join(ROOT, 'DESIGN.md')
s = open(design).read()
a, b = s.index('<!-- findings:'), s.index('<!-- end of findings')
head = s[a:s.index('\n', a) + 1]
open(design, 'w').write(s[:a] + head + ''.join('* `%s` (%s): %s\n' % (n, f, t) for _, n, f, t in sorted(found)) + s[b:])
