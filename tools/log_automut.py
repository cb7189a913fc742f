"""Append results of automatic mutation runs (jsonl) to seeded/LOG.jsonl.
usage: log_automut.py results.jsonl ['{"def|old|new": [tightened theorems] or "why equivalent"}']"""
import json, sys
notes = json.loads(open(sys.argv[2]).read()) if len(sys.argv) > 2 else {}
n = 0
with open('/verif/seeded/LOG.jsonl', 'a') as out:
    for line in open(sys.argv[1]):
        r = json.loads(line)
        if r['status'] == 'timeout': continue
        key = r['definition'] + '|' + r['new']
        note = notes.get(key)
        e = {"definition": r['file'].split('/')[0] + '.' + r['definition'], "file": r['file'],
             "edit": r['old'] + ' => ' + r['new'],
             "claim": "automatic one-token mutation of the definition", "failed": r['failed'],
             "outcome": r['status'] if r['status'] == 'detected' else 'SURVIVED',
             "tightened": note if isinstance(note, list) else []}
        if isinstance(note, str): e['claim'] = 'none: ' + note
        out.write(json.dumps(e) + '\n'); n += 1
print(n)
