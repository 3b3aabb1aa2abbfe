#!/usr/bin/env python3
"""Write a list of mechanical mutants of the model definitions for mutate.py.

usage: automutants.py PER_DEFINITION SEED > MUTANTS.py

Operators: change a number, swap arithmetic operators, swap sine and cosine, min and max, strict and weak comparisons,
negate a condition, swap booleans, swap two components.
"""
import glob, random, re, sys
per, seed = int(sys.argv[1]), int(sys.argv[2])
random.seed(seed)
OPS = [
    (r'(?<![\w.])(\d+(?:\.\d+)?)(?![\w.])', lambda m: str(round(float(m.group(1)) * 1.5 + 1, 3)) if '.' in m.group(1) else str(int(m.group(1)) + 1)),
    (r' \+ ', lambda m: ' - '), (r' - ', lambda m: ' + '), (r'(?<=[\[(,= ])-(?=[\w(])', lambda m: ''),
    (r' \* ', lambda m: ' / '), (r' / ', lambda m: ' * '),
    (r'Real\.sin\b', lambda m: 'Real.cos'), (r'Real\.cos\b', lambda m: 'Real.sin'),
    (r'\bmax\b', lambda m: 'min'), (r'\bmin\b', lambda m: 'max'),
    (r' < ', lambda m: ' ≤ '), (r' ≤ ', lambda m: ' < '), (r' ∧ ', lambda m: ' ∨ '), (r' ∨ ', lambda m: ' ∧ '),
    (r'\bif (?!h\w* :)(.+?) then', lambda m: f'if ¬ ({m.group(1)}) then'),
    (r'\btrue\b', lambda m: 'false'), (r'\bfalse\b', lambda m: 'true'),
    (r' \^ 2\b', lambda m: ' ^ 3'), (r'Real\.sqrt ', lambda m: 'id '), (r'Real\.pi', lambda m: '3'),
    (r'\bUp\b|\bup\b', lambda m: m.group(0)), (r'ᵀ', lambda m: ''),
    (r'\.utLoc\b', lambda m: '.bsLoc'), (r'\.bsLoc\b', lambda m: '.utLoc'),
]
out = []
for f in sorted(glob.glob('/verif/lean/Verif/Model/*.lean')):
    mod = f.split('/')[-1][:-5]
    if mod in ('Tables',): continue
    t = open(f).read()
    # blank out comments
    s = re.sub(r'/-.*?-/', lambda m: re.sub(r'[^\n]', '\0', m.group(0)), t, flags=re.S)
    s = re.sub(r'--[^\n]*', lambda m: '\0' * len(m.group(0)), s)
    heads = [m for m in re.finditer(r'^(?:@\[[^\]]*\] )?(?:noncomputable )?(def|abbrev|structure|inductive|theorem|instance|namespace|end|open|variable|section)\b ?([^\s:({\[]*)', s, re.M)]
    for h, nx in zip(heads, heads[1:] + [None]):
        if h.group(1) not in ('def', 'abbrev'): continue
        a = s.find(':=', h.end()); e = nx.start() if nx else len(s)
        b = s.find('\n', h.start())
        # first line may contain the body; pattern-matching definitions have no := before |
        a0 = min(x for x in (a + 2 if a >= 0 else 10**9, s.find('\n  |', h.end()) if s.find('\n  |', h.end()) >= 0 else 10**9) )
        if a0 >= e: continue
        cand = []
        for pat, rep in OPS:
            for m in re.finditer(pat, s[a0:e]):
                new = rep(m)
                if new == m.group(0) or '\0' in m.group(0): continue
                cand.append((pat, a0 + m.start(), a0 + m.end(), new))
        random.shuffle(cand)
        chosen, seen = [], set()
        for c in cand:
            if c[0] not in seen and len(chosen) < per: chosen.append(c); seen.add(c[0])
        for i, (pat, x, y, new) in enumerate(chosen):
            # enlarge the context until unique
            l, r = t.rfind('\n', 0, x) + 1, t.find('\n', y)
            while t.count(t[l:r]) != 1:
                l = t.rfind('\n', 0, l - 1) + 1
            old = t[l:r]; nw = t[l:x] + new + t[y:r]
            out.append((f'auto{seed}-{mod}-{h.group(2)}-{i}', f'Model/{mod}', h.group(2), old, nw, '', []))
print('M = [')
for o in out: print('   ', repr(o) + ',')
print(']')
