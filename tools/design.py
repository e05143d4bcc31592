#!/usr/bin/env python3
"""Regenerate the per-property table of DESIGN.md from properties.jsonl and MANIFEST.json, and tools/axioms.txt.

The axioms are those printed by `#print axioms`; run after `lake build`.
"""
import json, os, re, subprocess
root = os.path.dirname(os.path.dirname(os.path.abspath(__file__)))
lean = os.path.join(root, 'lean')
where = {}
for d, _, fs in os.walk(os.path.join(lean, 'Verif')):
    for f in fs:
        if f.endswith('.lean'):
            path = os.path.join(d, f)
            for m in re.finditer(r'^theorem\s+(C\d+)_', open(path).read(), re.M):
                where.setdefault(m.group(1), set()).add(os.path.relpath(path, os.path.join(lean, 'Verif'))[:-5])
props = [json.loads(l) for l in open(os.path.join(root, 'properties.jsonl'))]
claims = {c['property']: c for c in json.load(open(os.path.join(root, 'MANIFEST.json')))['claims']}
rows = ['| Property | Theorems in | Status | Note |', '|---|---|---|---|']
for p in props:
    c = claims.get(p['id'])
    if c:
        rows.append('| %s %s | %s | %s | %s |' % (p['id'], p['title'], ', '.join(sorted(where.get(p['id'], []))), c['status'],
                                               c['note'].replace('|', '\\|')))
path = os.path.join(root, 'DESIGN.md')
s = open(path).read()
a, b = '<!-- table -->\n', '<!-- end of table -->'
i, j = s.index(a) + len(a), s.index(b)
open(path, 'w').write(s[:i] + '\n'.join(rows) + '\n' + s[j:])
names = list(dict.fromkeys(t for c in claims.values() for t in c['theorems']))
src = 'import Verif\n' + ''.join('#print axioms %s\n' % n for n in names)
out = subprocess.run(['lake', 'env', 'lean', '--stdin'], cwd=lean, input=src, stdout=subprocess.PIPE, text=True).stdout
out = re.sub(r"<stdin>:\d+:\d+: (info: )?", '', re.sub(r',\n\s*', ', ', out))
open(os.path.join(root, 'tools', 'axioms.txt'), 'w').write(out)
kinds = {}
for l in out.splitlines():
    k = l.split("'")[-1].strip()
    kinds[k] = kinds.get(k, 0) + 1
print(kinds)
