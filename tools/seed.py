#!/usr/bin/env python3
"""Seeded-bug test driver.  usage: seed.py seeds.json
Each seed: {"def","file" (under lean/Verif),"old","new","claim","modules":[...]}.  A scratch copy of
lean/ is edited, the modules are rebuilt, failing theorems are listed and a line is appended to
seeded/LOG.jsonl.  A seed listed with "tightened" records that list."""
import json, subprocess, sys, re, os
root = '/verif'
scratch = '/tmp/scratch'
seeds = json.load(open(sys.argv[1]))
def enclosing(path, line):
    name = None
    for i, l in enumerate(open(path), 1):
        if i > line: break
        m = re.match(r'(?:private )?(?:theorem|def|lemma|noncomputable def|example)\s*(\S*)', l)
        if m: name = (m.group(1) or 'example') if not l.startswith('example') else 'example'
    return name
for s in seeds:
    subprocess.run(f'rm -rf {scratch}; cp -a {root}/lean {scratch}', shell=True, check=True)
    p = f"{scratch}/Verif/{s['file']}"
    t = open(p).read()
    if t.count(s['old']) < 1:
        print('NOT FOUND', s['def'], s['old']); continue
    t = t.replace(s['old'], s['new'], s.get('count', 1))
    open(p, 'w').write(t)
    r = subprocess.run(['lake', 'build'] + s['modules'], cwd=scratch, capture_output=True, text=True)
    out = r.stdout + r.stderr
    failed = []
    for m in re.finditer(r'error: (Verif/\S+\.lean):(\d+):', out):
        n = enclosing(scratch + '/' + m.group(1), int(m.group(2)))
        e = f"{m.group(1)[6:]}:{n}"
        if e not in failed: failed.append(e)
    print(('KILLED ' if r.returncode else 'SURVIVED ') + s['def'], '|', s['old'][:50], '->', s['new'][:50], '|', failed[:6])
    with open(root + '/seeded/LOG.jsonl', 'a') as f:
        f.write(json.dumps({"definition": s['def'], "file": s['file'], "edit": f"{s['old']} => {s['new']}", "claim": s['claim'],
            "failed": failed if r.returncode else [], "outcome": "detected" if r.returncode else "SURVIVED",
            "tightened": s.get('tightened', [])}) + '\n')
