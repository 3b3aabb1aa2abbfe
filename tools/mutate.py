#!/usr/bin/env python3
"""Seed bugs into a scratch copy of the model and record which theorems fail.

usage: mutate.py MUTANTS.py [first [last]]

MUTANTS.py defines M, a list of tuples (name, module, definition, old text, new text, claim that becomes false, property ids).
Results are appended to /tmp/mut/results.jsonl; the log in /verif/seeded is written by hand from them with seedlog.py.
"""
import json, os, re, subprocess, sys, shutil
SRC, W = '/verif/lean', os.environ.get('SCRATCH', '/tmp/mut/lean')

def sync():
    os.makedirs(W, exist_ok=True)
    subprocess.run(['rsync', '-a', '--delete', SRC + '/', W + '/'], check=True) if shutil.which('rsync') else \
        subprocess.run(f'rm -rf {W} && cp -a {SRC} {W}', shell=True, check=True)
    # the committed sources, whatever is being edited at the moment
    subprocess.run(f'git -C {SRC}/.. archive HEAD lean | tar -x -C {W}/..', shell=True, check=True)

def decl_at(path, line):
    name = None
    for i, l in enumerate(open(path), 1):
        m = re.match(r'(?:private |protected |noncomputable |@\[[^\]]*\] )*(theorem|def|lemma|example|instance|abbrev|structure|inductive)\s*([^\s:({\[]*)', l)
        if m:
            name = m.group(2) if m.group(1) != 'example' else f'example@{i}'
        if i >= line:
            return name
    return name

def build_fast():
    """Stop at the first module that fails."""
    pr = subprocess.Popen('exec lake build 2>&1', shell=True, cwd=W, stdout=subprocess.PIPE, text=True, start_new_session=True)
    failed, hit = [], False
    for l in pr.stdout:
        m = re.match(r'^error: (Verif/\S+\.lean):(\d+):', l)
        if m:
            d = f'{m.group(1)[6:-5]}:{decl_at(os.path.join(W, m.group(1)), int(m.group(2)))}'
            if d not in failed: failed.append(d)
            hit = True
        elif hit and re.match(r'^(✔|✖|⚠|ℹ|error: Lean exited)', l):
            break
    if hit:
        os.killpg(pr.pid, 9)
    pr.wait()
    return (not hit and pr.returncode == 0), failed, ['stopped at the first failing module']

def build():
    if os.environ.get('FAST'): return build_fast()
    r = subprocess.run(f'lake build {os.environ.get("TARGET", "")} 2>&1', shell=True, cwd=W, capture_output=True, text=True, timeout=3600)
    failed, mods = [], []
    for m in re.finditer(r'^error: (Verif/\S+\.lean):(\d+):', r.stdout, re.M):
        d = f'{m.group(1)[6:-5]}:{decl_at(os.path.join(W, m.group(1)), int(m.group(2)))}'
        if d not in failed: failed.append(d)
    for m in re.finditer(r'^- (Verif\S*)', r.stdout, re.M):
        mods.append(m.group(1))
    return r.returncode == 0, failed, mods

def main():
    ns = {}
    exec(open(sys.argv[1]).read(), ns)
    M = ns['M']
    a = int(sys.argv[2]) if len(sys.argv) > 2 else 0
    b = int(sys.argv[3]) if len(sys.argv) > 3 else len(M)
    if not os.path.isdir(W) or os.environ.get('SYNC'): sync()
    for name, mod, dfn, old, new, claim, props in M[a:b]:
        p = f'{W}/Verif/{mod}.lean'
        text = open(p).read()
        if text.count(old) != 1:
            print(name, 'PATTERN', text.count(old), flush=True); continue
        open(p, 'w').write(text.replace(old, new))
        try:
            ok, failed, mods = build()
        finally:
            open(p, 'w').write(text)
        rec = dict(name=name, module=mod, definition=dfn, old=old, new=new, claim=claim, props=props, ok=ok, failed=failed, mods=mods)
        with open('/tmp/mut/results.jsonl', 'a') as f: f.write(json.dumps(rec) + '\n')
        print(name, 'SURVIVED' if ok else 'killed', failed[:6], flush=True)

main()
