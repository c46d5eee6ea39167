#!/usr/bin/env python3
"""Write AXIOMS.md: the axioms that each theorem of MANIFEST.json depends on (`#print axioms`). Run after `lake build`."""
import json, os, re, subprocess, tempfile
root = os.path.dirname(os.path.dirname(os.path.abspath(__file__)))
names = [t for c in json.load(open(root + '/MANIFEST.json'))['claims'] for t in c['theorems']]
with tempfile.NamedTemporaryFile('w', suffix='.lean') as f:
    f.write('import Verif\n' + ''.join('#print axioms %s\n' % n for n in names))
    f.flush()
    out = subprocess.run(['lake', 'env', 'lean', f.name], cwd=root + '/lean', capture_output=True, text=True).stdout
groups = {}
for m in re.finditer(r"'(\S+)' (?:depends on axioms: \[([^\]]*)\]|does not depend on any axioms)", out):
    axioms = ', '.join('`%s`' % a.strip() for a in (m.group(2) or '').split(',') if a.strip()) or 'none'
    groups.setdefault(axioms, []).append(m.group(1))
assert sorted(n for g in groups.values() for n in g) == sorted(names), out
with open(root + '/AXIOMS.md', 'w') as f:
    f.write('# Axioms of the theorems in MANIFEST.json\n\nWritten by `tools/axioms.py`. All names are in the namespace `Dxl.Props`.\n')
    for axioms, ths in sorted(groups.items(), key=lambda g: len(g[1])):
        f.write('\n## %s (%d theorems)\n\n' % (axioms, len(ths)))
        f.write(''.join('* `%s`\n' % t.replace('Dxl.Props.', '') for t in ths))
