#!/usr/bin/env python3
"""Mutation testing of the theorems.

usage: mutate.py mutants.json [ids...]
Each mutant: {"id","file","definition","old","new","edit","claim"}.
For each, a scratch copy of the last commit's lean directory is edited and rebuilt; one JSON line per mutant is
printed: the theorems (in Props and Lemmas) whose proofs failed, or survived=true.
"""
import json, os, re, shutil, subprocess, sys

BASE = os.environ.get('MUTDIR', '/tmp/mut')
SRC, DST = BASE + '/src/lean', BASE + '/lean'

def theorem_at(path, line):
    name = None
    for i, l in enumerate(open(path), 1):
        m = re.match(r'\s*(?:@\[[^\]]*\]\s*)?(?:private\s+|protected\s+|noncomputable\s+)*(theorem|lemma|def|instance|example|abbrev)\s*([^\s:({\[]*)', l)
        if m:
            if i > line:
                break
            name = (m.group(1) + ' ' + m.group(2)).strip() if m.group(1) != 'theorem' else m.group(2)
    return name

def importers(mods):
    """all Props modules that import one of mods, transitively"""
    imp = {}
    for root, _, fs in os.walk(SRC + '/Verif'):
        for f in fs:
            if f.endswith('.lean'):
                p = os.path.join(root, f)
                m = os.path.relpath(p, SRC)[:-5].replace('/', '.')
                imp[m] = set(re.findall(r'^import (Verif\S*)', open(p).read(), re.M))
    out = set(mods)
    while True:
        new = {m for m, i in imp.items() if i & out} - out
        if not new:
            return out - set(mods)
        out |= new

def main():
    muts = json.load(open(sys.argv[1]))
    ids = sys.argv[2:]
    shutil.rmtree(BASE + '/src', ignore_errors=True)
    os.makedirs(BASE + '/src', exist_ok=True)
    subprocess.run(f'git -C /verif archive HEAD lean | tar -x -C {BASE}/src', shell=True, check=True)
    if not os.path.exists(DST):
        shutil.copytree('/verif/lean', DST, symlinks=True)
    sync()
    base = subprocess.run(['lake', 'build'], cwd=DST, capture_output=True, text=True)
    assert base.returncode == 0, base.stdout[-2000:]
    pristine = BASE + '/pristine'
    shutil.rmtree(pristine, ignore_errors=True)
    subprocess.run(['cp', '-a', DST + '/.lake/build', pristine], check=True)
    for m in muts:
        if ids and m['id'] not in ids:
            continue
        sync()
        shutil.rmtree(DST + '/.lake/build')
        subprocess.run(['cp', '-a', pristine, DST + '/.lake/build'], check=True)
        p = os.path.join(DST, 'Verif', m['file'])
        s = open(p).read()
        if s.count(m['old']) < 1:
            print(json.dumps({'id': m['id'], 'error': 'pattern not found'}), flush=True)
            continue
        s = s.replace(m['old'], m['new'], 1)
        open(p, 'w').write(s)
        r = subprocess.run(['lake', 'build'], cwd=DST, capture_output=True, text=True)
        out = r.stdout + r.stderr
        failed, mods = [], set()
        for f, ln in re.findall(r'^error: (Verif/\S+\.lean):(\d+):', out, re.M):
            mods.add(f[:-5].replace('/', '.'))
            n = theorem_at(os.path.join(DST, f), int(ln))
            n = n and n or '?'
            if n == 'example':
                n = 'example in ' + f
            if n not in failed:
                failed.append(n)
        blocked = sorted(x for x in importers(mods) if x.startswith('Verif.Props')) if mods else []
        print(json.dumps({'id': m['id'], 'ok_build': r.returncode == 0, 'failed': failed, 'blocked': blocked}), flush=True)

def sync():
    for root, dirs, fs in os.walk(DST + '/Verif'):
        for f in fs:
            if not os.path.exists(os.path.join(SRC, os.path.relpath(os.path.join(root, f), DST))):
                os.remove(os.path.join(root, f))
    for root, dirs, fs in os.walk(SRC):
        dirs[:] = [d for d in dirs if d != '.lake']
        for f in fs:
            a = os.path.join(root, f)
            b = os.path.join(DST, os.path.relpath(a, SRC))
            os.makedirs(os.path.dirname(b), exist_ok=True)
            if not os.path.exists(b) or open(a, 'rb').read() != open(b, 'rb').read():
                shutil.copy(a, b)

main()
