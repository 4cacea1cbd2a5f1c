#!/usr/bin/env python3
"""Seeded-bug runner. Usage: mutate.py FILE.py [FILE.py ...] [-j N]

Each FILE.py defines M = [(module, definition, old, new, claim), ...] where module is a path under
lean/Verif, `old` occurs in the text at or after the definition's name, and `claim` is the English
claim the edit breaks. Every edit is applied to a scratch copy outside /verif, the whole project is
rebuilt there, and the theorems in which errors are reported are collected. One JSON line per edit
is appended to seeded/LOG.jsonl."""
import sys, os, re, json, shutil, subprocess, importlib.util
from concurrent.futures import ThreadPoolExecutor
from threading import Lock, local
ROOT = '/verif'
SRC = '/tmp/pristine' if os.path.exists('/tmp/pristine') else ROOT + '/lean'   # frozen, built copy
LOG = ROOT + '/seeded/LOG.jsonl'
lock = Lock()
free = []
TARGETS = {}

def theorem_at(path, line):
    name = '?'
    for i, l in enumerate(open(path), 1):
        if i > line: break
        m = re.match(r'\s*(?:@\[[^\]]*\]\s*)?(?:private |protected |noncomputable )*(theorem|lemma|def|example|instance|abbrev|structure)\b\s*([^\s:({\[]*)', l)
        if m: name = m.group(2) or m.group(1)
    return name

def run(mut):
    module, definition, old, new, claim = mut[:5]
    with lock: d = free.pop()
    try:
        shutil.rmtree(d, ignore_errors=True)
        subprocess.run(['cp', '-a', SRC, d], check=True)
        path = f'{d}/Verif/{module}'
        s = open(path).read()
        m = re.search(r'(?:def|theorem|structure|inductive|abbrev)\s+' + re.escape(definition) + r'(?![\w.])', s)
        if not m: return (mut, 'NODEF', [])
        k = s.find(old, m.start())
        if k < 0: return (mut, 'NOMATCH', [])
        s = s[:k] + new + s[k + len(old):]
        open(path, 'w').write(s)
        # targets named by the file first (cheap); the whole project only if those still build
        for t in ([TARGETS[k]] if (k := mut[1] if mut[1] in TARGETS else mut[0]) in TARGETS else []) + [[]]:
            p = subprocess.run(['lake', 'build'] + t, cwd=d, capture_output=True, text=True)
            if p.returncode != 0: break
        errs = []
        for f, ln in re.findall(r'^error: (Verif/[^:]+):(\d+):\d+', p.stdout, re.M):
            t = theorem_at(f'{d}/{f}', int(ln))
            if (f, t) not in errs: errs.append((f, t))
        return (mut, 'OK' if p.returncode == 0 else 'FAIL', errs)
    finally:
        with lock: free.append(d)

def main():
    args = sys.argv[1:]; j = 3
    if '-j' in args:
        i = args.index('-j'); j = int(args[i + 1]); del args[i:i + 2]
    skip = []
    if '-x' in args:
        i = args.index('-x'); skip = args[i + 1].split(','); del args[i:i + 2]
    muts = []
    for a in args:
        spec = importlib.util.spec_from_file_location('m', a); mod = importlib.util.module_from_spec(spec)
        spec.loader.exec_module(mod); muts += mod.M; TARGETS.update(getattr(mod, 'T', {}))
    done = set()
    if os.path.exists(LOG):
        for l in open(LOG):
            r = json.loads(l); done.add((r['file'], r['definition'], r['edit']))
    key = lambda m: ('Model/' + m[0].split('/')[-1] if not m[0].startswith('Model') else m[0], m[1], f'{m[2]}  ==>  {m[3]}')
    muts = [m for m in muts if (m[0], m[1], f'{m[2]}  ==>  {m[3]}') not in done and m[1] not in skip]
    for i in range(j): free.append(f'/tmp/scratch/w{i}')
    os.makedirs('/tmp/scratch', exist_ok=True)
    with ThreadPoolExecutor(j) as ex:
        for mut, st, errs in ex.map(run, muts):
            module, definition, old, new, claim = mut[:5]
            if st in ('NODEF', 'NOMATCH'):
                print('!!', st, module, definition, old[:60]); continue
            thms = [t for f, t in errs]
            modelerr = [f for f, t in errs if f.startswith('Verif/Model')]
            if modelerr:
                print('!! model does not compile', module, definition, old[:60], '->', new[:60]); continue
            cn = [t for t in thms if re.match(r'C\d\d', t)]
            print(('SURVIVED' if st == 'OK' else 'killed'), module, definition, '|', old[:50].replace('\n', ' '), '->', new[:50].replace('\n', ' '), '|', ', '.join(thms[:6]), flush=True)
            if st == 'OK' and len(mut) < 6:
                continue      # look at it first, then record with the tightening
            with lock, open(LOG, 'a') as f:
                f.write(json.dumps({'file': module, 'definition': definition, 'edit': f'{old}  ==>  {new}',
                    'claim': claim, 'failed': thms, 'tightened': mut[5] if len(mut) > 5 else []}) + '\n')
main()
