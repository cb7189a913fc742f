#!/usr/bin/env python3
"""Regenerates MANIFEST.json from theorem names (C<nn>_...) in lean/Verif/**/Props*.lean
and the notes in tools/notes.json ({"C01": {"status": ..., "note": ...}})."""
import json, re, glob, os
root = os.path.dirname(os.path.dirname(os.path.abspath(__file__)))
props = [json.loads(l)['id'] for l in open(root + '/properties.jsonl')]
notes = json.load(open(root + '/tools/notes.json'))
thms = {}
for f in sorted(glob.glob(root + '/lean/Verif/**/Props*.lean', recursive=True)):
    ns = []
    for l in open(f):
        m = re.match(r'namespace (\S+)', l)
        if m: ns.append(m.group(1))
        m = re.match(r'end (\S+)', l)
        if m and ns and ns[-1] == m.group(1): ns.pop()
        m = re.match(r'(?:protected )?theorem (C\d\d)_(\S+)', l)
        if m:
            thms.setdefault(m.group(1), []).append('.'.join(ns) + '.' + m.group(1) + '_' + m.group(2))
claims = []
for p in props:
    n = notes.get(p, {})
    t = thms.get(p, [])
    if not t and 'status' not in n: continue
    st = n.get('status') or ('partial' if any(x.endswith('_partial') for x in t) else 'proved')
    claims.append({"property": p, "status": st, "theorems": t, "note": n.get('note', '')})
json.dump({"claims": claims}, open(root + '/MANIFEST.json', 'w'), indent=1)
print(len(claims), 'claims;', [p for p in props if p not in {c['property'] for c in claims}], 'missing')
