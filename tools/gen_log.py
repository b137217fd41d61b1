#!/usr/bin/env python3
"""Write seeded/LOG.jsonl from the reports of mutate.py in /root/mutlogs.

Lines already in the log whose report is gone are kept.  What was tightened because of an attempt is
recorded by hand in seeded/tightened.json: {attempt: {"tightened": [theorems], "note": text}}."""
import glob, json, os, re
props = {p['id']: p['title'] for p in map(json.loads, open('/verif/properties.jsonl'))}
hand = json.load(open('/verif/seeded/tightened.json')) if os.path.exists('/verif/seeded/tightened.json') else {}
log = {}
if os.path.exists('/verif/seeded/LOG.jsonl'):
    for l in open('/verif/seeded/LOG.jsonl'):
        if l.strip():
            d = json.loads(l); log[d['attempt']] = d
for path in sorted(glob.glob('/root/mutlogs/*.json'), key=os.path.getmtime):
    r = json.load(open(path))
    if 'statement fails' in r['note']: continue  # the harness gave up; to be run again
    defs, edits = [], []
    for f, old, new in r['edits']:
        t = open(f'/verif/lean/Verif/Model/{f}.lean').read()
        i = t.find(old)
        ms = list(re.finditer(r'^(?:@\[[^\]]*\] )?(?:def|abbrev|inductive|structure|instance) (\S+)', t[:i + len(old)], re.M)) if i >= 0 else []
        defs.append(f'Verif/Model/{f}.lean: ' + (ms[-1].group(1) if ms else '?'))
        edits.append({'from': old, 'to': new})
    h = hand.get(r['name'], {})
    log[r['name']] = {
        'attempt': r['name'], 'definition': '; '.join(dict.fromkeys(defs)), 'edit': r['desc'], 'diff': edits,
        'claim_broken': [f'{c}: {props[c]}' for c in r['claim']],
        'theorems_failed': r['failed'], 'broken_directly': r['broken'], 'examples_failed': r['examples'], 'project_tests_failed': None if r.get('tests') is None else len(r['tests']),
        'claims_not_caught': r['missed'], 'theorems_tightened': h.get('tightened', []),
        'note': '; '.join(x for x in [r['note'], 'only built: ' + ', '.join(r['modules']) if 'modules' in r else '', h.get('note', '')] if x)}
with open('/verif/seeded/LOG.jsonl', 'w') as f:
    for d in log.values(): f.write(json.dumps(d, ensure_ascii=False) + '\n')
print(len(log), 'attempts,', sum(1 for d in log.values() if d['claims_not_caught']), 'with claims not caught,', sum(1 for d in log.values() if d['note']), 'with notes')
