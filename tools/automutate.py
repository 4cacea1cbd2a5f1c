#!/usr/bin/env python3
"""Generate operator-level seeded bugs for every definition of a model file.
Usage: automutate.py Model/X.lean CLAIM > seeded/auto_X.py"""
import re, sys, random
module, claim = sys.argv[1], sys.argv[2]
skip = set(sys.argv[3].split(',')) if len(sys.argv) > 3 else set()
src = open('/verif/lean/Verif/' + module).read()
# split into definitions
starts = [m for m in re.finditer(r'^(?:@\[[^\]]*\]\s*)?(?:private |noncomputable )*(?:def|abbrev)\s+(\S+)', src, re.M)]
bounds = [m.start() for m in re.finditer(r'^(?:/--|open |end |namespace |structure |inductive |variable |section |(?:private |noncomputable )*(?:def|abbrev|theorem)|/-!|@\[)', src, re.M)] + [len(src)]
OPS = [(' - ', ' + '), (' + ', ' - '), (' * ', ' / '), (' / ', ' * '), (' < ', ' ≥ '), (' ≤ ', ' > '), (' > ', ' ≤ '), (' ≥ ', ' < '),
       (' ∧ ', ' ∨ '), (' && ', ' || '), (' || ', ' && '), ('^ 2', '^ 3'), ('max ', 'min '), ('min ', 'max '), (':= -', ':= '), ('(-', '('), ('/ 2', '/ 3'), ('Real.sqrt', 'id'), (' else ', None)]
out = []
random.seed(1)
for m in starts:
    name = m.group(1)
    if name in skip: continue
    end = min(b for b in bounds if b > m.start() + 3)
    body = src[m.start():end]
    k = body.find(':=')
    if k < 0:
        k = body.find('\n  |')
    if k < 0: continue
    head, b = body[:k], body[k:]
    cand = []
    for a, c in OPS:
        if c is None: continue
        pos = [x.start() for x in re.finditer(re.escape(a), b)]
        # ignore those in comments
        pos = [p for p in pos if '--' not in b[b.rfind('\n', 0, p) + 1:p]]
        if pos:
            for p in ([pos[0]] if len(pos) == 1 else [pos[0], pos[-1]]):
                cand.append((p, a, c))
    if len(cand) > 4:
        cand = random.sample(cand, 4)
    for p, a, c in cand:
        # context for uniqueness: from line start to line end
        ls = b.rfind('\n', 0, p) + 1
        le = b.find('\n', p + len(a)); le = len(b) if le < 0 else le
        line = b[ls:le]
        if line.strip() == '': continue
        newline = b[ls:p] + c + b[p + len(a):le]
        out.append((module, name, line, newline, claim))
print('M = [')
for o in out: print(repr(o) + ',')
print(']')
