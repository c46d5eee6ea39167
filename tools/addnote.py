#!/usr/bin/env python3
"""addnote.py C30 'text': set the note of a property in notes.json."""
import json, sys, os
p = os.path.join(os.path.dirname(os.path.abspath(__file__)), 'notes.json')
d = json.load(open(p))
for k, v in zip(sys.argv[1::2], sys.argv[2::2]): d[k] = v
open(p, 'w').write('{\n' + ',\n'.join(' %s: %s' % (json.dumps(k), json.dumps(d[k])) for k in sorted(d)) + '\n}\n')
