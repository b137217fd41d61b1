#!/usr/bin/env python3
"""Rebuild a scratch copy of the Lean project with one edit of the model.

usage: mutate.py [--near] NAME...   (edits are taken from seeded/mutations.py; without names, all not yet in /root/mutlogs)

With --near only the modules that state theorems of the claims the edit breaks (and what they import) are built, and the
ported tests are not run; the report names these modules.

Declarations whose proof fails are replaced by `sorry` in the scratch copy (failing examples are
removed), until everything builds; then the property theorems that depend on `sorryAx` are the ones
that failed.  The report goes to /root/mutlogs/NAME.json."""
import json, os, re, shutil, subprocess, sys
sys.path.insert(0, '/verif/seeded')
from mutations import MUTATIONS
DIR = os.environ.get('MUT_DIR', '/root/mut')
BASE, SCRATCH, LOGS = DIR + '0', DIR, '/root/mutlogs'
START = re.compile(r'^(?:@\[[^\]]*\] )?(?:private |protected )?(theorem|example|def|instance|structure|inductive|abbrev)\b ?(\S*)')
STOP = re.compile(r'^(/--|/-!|@\[|private|protected|theorem|example|def|instance|structure|inductive|abbrev|end\b|namespace|section|open|variable|set_option|mutual)')

def decl_at(lines, n):
    i = n
    if lines[i].startswith('/--'):
        while i < len(lines) - 1 and not START.match(lines[i]): i += 1
    while i >= 0 and not START.match(lines[i]): i -= 1
    if i < 0: return None
    j = i + 1
    while j < len(lines) and not STOP.match(lines[j]): j += 1
    return i, j, START.match(lines[i])

def sorried(text):
    depth = 0
    k = 0
    while k < len(text):
        c = text[k]
        if c in '([{⟨': depth += 1
        elif c in ')]}⟩': depth -= 1
        elif depth == 0 and text.startswith(':=', k) and not text[text.rfind('\n', 0, k) + 1:k].strip().startswith('let '): return text[:k] + ':= by sorry\n\n'
        elif depth == 0 and text.startswith('\n  |', k) : return text[:k] + ' := by sorry\n\n'
        elif depth == 0 and text.startswith(' where\n', k): return text[:k] + ' := by sorry\n\n'
        k += 1
    return None

def prep():
    if os.path.exists(BASE): shutil.rmtree(BASE)
    subprocess.run(['cp', '-a', '/verif/lean', BASE], check=True)
    # the ported tests are run separately
    v = open(f'{BASE}/Verif.lean').read()
    open(f'{BASE}/Verif.lean', 'w').write(''.join(l + '\n' for l in v.split('\n') if l and 'Verif.Tests' not in l))
    subprocess.run(['lake', 'build', '-q', 'Verif.Tests.Support'], cwd=BASE, check=True, stdout=subprocess.DEVNULL)
    subprocess.run(['lake', 'build', '-q'], cwd=BASE, check=True, stdout=subprocess.DEVNULL)

def modules_of(claims):
    """The modules that state a theorem of one of the claims."""
    out = []
    for f in sorted(os.listdir(f'{BASE}/Verif/Props')):
        t = open(f'{BASE}/Verif/Props/{f}').read()
        if any(re.search(r'^theorem %s_' % c, t, re.M) for c in claims): out.append('Verif.Props.' + f[:-5])
    return out

def run(name, edits, claim, desc, near=False):
    targets = modules_of(claim) if near else []
    if os.path.exists(SCRATCH): shutil.rmtree(SCRATCH)
    subprocess.run(['cp', '-a', BASE, SCRATCH], check=True)
    for f, old, new in edits:
        p = f'{SCRATCH}/Verif/Model/{f}.lean'
        t = open(p).read()
        assert t.count(old) >= 1, (name, 'edit does not apply', f, old)
        t = t.replace(old, new, 1)
        open(p, 'w').write(t)
    broken, examples, note, seen = [], [], '', {}
    for rnd in range(60):
        r = subprocess.run(['lake', 'build', '-q'] + targets, cwd=SCRATCH, capture_output=True, text=True)
        if r.returncode == 0: break
        errs = {}
        for m in re.finditer(r'error: (Verif/\S+\.lean):(\d+):(\d+): (.*)', r.stdout + r.stderr):
            errs.setdefault(m.group(1), []).append((int(m.group(2)), m.group(4)))
        if not errs:
            note = 'no error location: ' + (r.stdout + r.stderr)[-600:]; break
        stop = False
        for f, es in errs.items():
            p = f'{SCRATCH}/{f}'
            lines = open(p).read().split('\n')
            blocks = {}
            for n, msg in es:
                d = decl_at(lines, n - 1)
                if d: blocks[d[0]] = (d, msg)
            for i in sorted(blocks, reverse=True):
                (i, j, m), msg = blocks[i]
                kind, nm = m.group(1), m.group(2)
                text = '\n'.join(lines[i:j])
                if kind == 'example':
                    examples.append(f'{f}:{i+1}')
                    k = i
                    if k > 0 and lines[k-1].rstrip().endswith('-/'):
                        while not lines[k-1].startswith('/--'): k -= 1
                        k -= 1
                    lines[k:j] = ['']
                elif kind == 'theorem':
                    key = f + nm
                    seen[key] = seen.get(key, 0) + 1
                    if seen[key] > 1:
                        note = f'{f} {nm}: statement fails: {msg}'; stop = True; continue
                    s = sorried(text)
                    if s is None: note = f'cannot patch {nm}'; stop = True; continue
                    broken.append(nm)
                    lines[i:j] = s.split('\n')
                else:
                    note = f'{f}: {kind} {nm} fails: {msg}'; stop = True
            open(p, 'w').write('\n'.join(lines))
        if stop: break
    failed = []
    if not note:
        ths = [t for c in json.load(open('/verif/MANIFEST.json'))['claims'] for t in c['theorems']]
        if near:
            text = ''.join(open(f'{SCRATCH}/{m.replace(".", "/")}.lean').read() for m in targets)
            ths = [t for t in ths if re.search(r'^theorem %s\b' % re.escape(t.replace('Ssh.', '')), text, re.M)]
        head = ''.join(f'import {m}\n' for m in targets) if near else 'import Verif\n'
        open(f'{SCRATCH}/Check.lean', 'w').write(head + '\n'.join(f'#print axioms {t}' for t in ths) + '\n')
        r = subprocess.run(['lake', 'env', 'lean', 'Check.lean'], cwd=SCRATCH, capture_output=True, text=True)
        for m in re.finditer(r"'(\S+)' depends on axioms: \[([^\]]*)\]", r.stdout):
            if 'sorryAx' in m.group(2): failed.append(m.group(1).replace('Ssh.', ''))
    # the ported tests of the project that fail with this edit
    tests = None
    if not near and subprocess.run(['lake', 'build', '-q', 'Verif.Tests.Support'], cwd=SCRATCH, capture_output=True).returncode == 0:
        tests = []
        for f in sorted(os.listdir(f'{SCRATCH}/Verif/Tests')):
            src = open(f'{SCRATCH}/Verif/Tests/{f}').read().split('\n')
            r = subprocess.run(['lake', 'env', 'lean', f'Verif/Tests/{f}'], cwd=SCRATCH, capture_output=True, text=True)
            for n in re.findall(r'%s:(\d+):\d+: error' % re.escape(f), r.stdout):
                k = int(n) - 1
                while k >= 0 and not src[k].startswith('-- tests/'): k -= 1
                if k >= 0 and src[k][9:] not in tests: tests.append(src[k][9:])
    rep = dict(tests=tests, name=name, edits=edits, desc=desc, claim=claim, failed=failed, broken=broken, examples=examples, note=note,
               caught=[c for c in claim if any(t.startswith(c + '_') for t in failed)],
               missed=[c for c in claim if not any(t.startswith(c + '_') for t in failed)])
    if near: rep['modules'] = targets
    json.dump(rep, open(f'{LOGS}/{name}.json', 'w'), indent=1)
    print(name, 'MISSED' if rep['missed'] else 'ok', rep['missed'], note[:200], len(failed), flush=True)

if __name__ == '__main__':
    near = '--near' in sys.argv
    names = [a for a in sys.argv[1:] if a != '--near'] or [m[0] for m in MUTATIONS if not os.path.exists(f'{LOGS}/{m[0]}.json')]
    prep()
    for m in MUTATIONS:
        if m[0] in names:
            try: run(*m, near)
            except AssertionError as e: print(e, flush=True)
