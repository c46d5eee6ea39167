#!/usr/bin/env python3
"""Write MANIFEST.json from the theorem names cNN_* in lean/Verif/Props and the notes in tools/notes.json."""
import json, re, glob, os
root = os.path.dirname(os.path.dirname(os.path.abspath(__file__)))
names = {}
for f in sorted(glob.glob(root + '/lean/Verif/Props/*.lean')):
    text = open(f).read()
    ns = re.search(r'^namespace (\S+)', text, re.M).group(1)
    for m in re.finditer(r'^theorem (c(\d\d+)_\w+)', text, re.M):
        names.setdefault('C' + m.group(2), []).append(ns + '.' + m.group(1))
notes = json.load(open(root + '/tools/notes.json'))
claims = []
for line in open(root + '/properties.jsonl'):
    pid = json.loads(line)['id']
    if pid not in names:
        print('no theorem for', pid)
        continue
    ths = names[pid]
    partial = any('_partial' in t or '_refuted' in t for t in ths)
    status = 'partial' if partial else 'proved'
    claims.append({'property': pid, 'status': status, 'theorems': ths, 'note': notes.get(pid, '')})
    if pid not in notes: print('no note for', pid)
json.dump({'claims': claims}, open(root + '/MANIFEST.json', 'w'), indent=1)
open(root + '/MANIFEST.json', 'a').write('\n')
