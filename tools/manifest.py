#!/usr/bin/env python3
"""Regenerate MANIFEST.json and lean/Verif.lean.

Theorem names are collected from the Lean sources (every `theorem Cnn_...` in a Props file); the status and
note of each property are read from tools/status.json, which maps a property id to [status, note].
"""
import json, os, re
root = os.path.dirname(os.path.dirname(os.path.abspath(__file__)))
lean = os.path.join(root, 'lean')
mods, names = [], {}
for d, _, fs in sorted(os.walk(os.path.join(lean, 'Verif'))):
    for f in sorted(fs):
        if f.endswith('.lean'):
            path = os.path.join(d, f)
            mods.append(os.path.relpath(path, lean)[:-5].replace('/', '.'))
            ns = []
            for line in open(path):
                m = re.match(r'namespace\s+(\S+)', line)
                if m: ns.append(m.group(1)); continue
                m = re.match(r'end\s+(\S+)\s*$', line)
                if m and ns and ns[-1] == m.group(1): ns.pop(); continue
                m = re.match(r"theorem\s+(C\d+)_(\S+)", line)
                if m: names.setdefault(m.group(1), []).append('.'.join(ns + [m.group(1) + '_' + m.group(2)]))
open(os.path.join(lean, 'Verif.lean'), 'w').write(''.join('import %s\n' % m for m in sorted(mods)))
status = json.load(open(os.path.join(root, 'tools', 'status.json')))
props = [json.loads(l)['id'] for l in open(os.path.join(root, 'properties.jsonl'))]
claims, todo = [], []
for p in props:
    if p in status and (p in names or status[p][0] == 'not_applicable'):
        claims.append({'property': p, 'status': status[p][0], 'theorems': names.get(p, []), 'note': status[p][1]})
    else:
        todo.append(p)
json.dump({'claims': claims}, open(os.path.join(root, 'MANIFEST.json'), 'w'), indent=1, ensure_ascii=False)
print('claims', len(claims), 'theorems', sum(len(c['theorems']) for c in claims), 'todo', ' '.join(todo))
extra = set(names) - set(props)
if extra: print('theorems without property:', extra)
