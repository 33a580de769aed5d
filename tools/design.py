#!/usr/bin/env python3
"""Assemble DESIGN.md from tools/design_head.md, tools/how.json, properties.jsonl and MANIFEST.json."""
import json, os
R = os.path.dirname(os.path.dirname(os.path.abspath(__file__)))
ms = {m['property']: m for m in json.load(open(R + '/MANIFEST.json'))['claims']}
how = json.load(open(R + '/tools/how.json'))
out = []
for l in open(R + '/properties.jsonl'):
    p = json.loads(l); i = p['id']; m = ms.get(i, {'status': 'open', 'note': ''})
    out.append((i, p['title'], m['status'], how.get(i, ''), m['note']))
out.sort(key=lambda x: int(x[0][1:]))
s = open(R + '/tools/design_head.md').read()
s += ''.join(f"| {a} | {b} | {c} | {d} |\n" for a, b, c, d, e in out)
s += '\n## Where the code does not have the property (each is a theorem `..._violated`, or an exact set)\n\n'
s += ''.join(f"* {a} {b}: {e}\n" for a, b, c, d, e in out if c == 'partial')
open(R + '/DESIGN.md', 'w').write(s)
