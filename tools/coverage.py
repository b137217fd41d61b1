#!/usr/bin/env python3
"""Which lines of /repo are cited by definitions of the model, and which functions are not."""
import glob, os, re
cited = {}
for f in glob.glob('/verif/lean/Verif/Model/*.lean'):
    t = open(f).read()
    cur = None
    for m in re.finditer(r'((?:src|examples)/[\w/-]+\.rs|[\w-]+\.rs)?:?((?<=:)\d+(?:-\d+)?|(?<=, )\d+-\d+|(?<=and )\d+(?:-\d+)?)', t):
        if m.group(1):
            cur = m.group(1)
            if '/' not in cur: cur = 'examples/' + cur
        if cur is None: continue
        a, _, b = m.group(2).partition('-')
        cited.setdefault(cur, set()).update(range(int(a), int(b or a) + 1))
for d in ('src', 'examples'):
    for root, _, fs in sorted(os.walk('/repo/' + d)):
        for f in sorted(fs):
            if not f.endswith('.rs'): continue
            p = os.path.join(root, f); r = p[len('/repo/'):]
            ls = open(p).read().split('\n')
            stop = next((i for i, l in enumerate(ls) if '#[cfg(test)]' in l), len(ls))
            c = cited.get(r, set())
            miss = []
            for i, l in enumerate(ls[:stop], 1):
                m = re.match(r'\s*(?:pub(?:\([a-z]+\))? )?(?:const )?(?:async )?fn (\w+)', l)
                if m and not any(k in c for k in range(i, i + 4)): miss.append(f'{m.group(1)}:{i}')
            print(r, stop, 'not cited:', ' '.join(miss) if miss else '-')
