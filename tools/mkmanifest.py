#!/usr/bin/env python3
"""Regenerates MANIFEST.json from the theorem names in lean/Verif/Props (prefix Cnn_) and notes.json,
and lean/Verif.lean from the list of modules."""
import json, re, glob, os
root = os.path.dirname(os.path.dirname(os.path.abspath(__file__)))
props = [json.loads(l) for l in open(f'{root}/properties.jsonl')]
notes = json.load(open(f'{root}/tools/notes.json'))
thms = {}
for f in sorted(glob.glob(f'{root}/lean/Verif/Props/*.lean')):
    ns = []
    for line in open(f):
        if m := re.match(r'namespace (\S+)', line):
            ns.append(m.group(1))
        elif ns and line.strip() == 'end ' + ns[-1]:
            ns.pop()
        elif m := re.match(r'theorem (C\d\d\d?)(_\w+)', line):
            thms.setdefault(m.group(1), []).append('.'.join(ns + [m.group(1) + m.group(2)]))
claims = []
for p in props:
    i = p['id']
    n = notes.get(i, {})
    if i in thms:
        claims.append({'property': i, 'status': n.get('status', 'proved'), 'theorems': thms[i], 'note': n.get('note', p['title'])})
    else:
        print('no theorem yet:', i)
json.dump({'claims': claims}, open(f'{root}/MANIFEST.json', 'w'), indent=1)
mods = sorted(glob.glob(f'{root}/lean/Verif/**/*.lean', recursive=True))
with open(f'{root}/lean/Verif.lean', 'w') as o:
    for m in mods:
        o.write('import ' + os.path.relpath(m, f'{root}/lean')[:-5].replace('/', '.') + '\n')
