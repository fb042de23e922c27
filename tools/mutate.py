#!/usr/bin/env python3
"""Seeded-bug driver.

usage: mutate.py BATCH.py [id ...]

BATCH.py defines M, a list of dicts: id, file (below lean/Verif), old, new, definition, edit, claim and
optionally witness (a Lean snippet that imports only Model/Spec modules and refutes the property on the edited
model).  Each edit is applied to a scratch copy of the Lake project in /tmp/mut; the modules that state the claim (and, if
these still build, the whole project) are rebuilt; the
declarations whose proofs fail are mapped to the theorems of MANIFEST.json that use them.  One line per attempt is
appended to /verif/seeded/LOG.jsonl.
"""
import json, os, re, subprocess, sys, runpy
ROOT = '/tmp/mut'
SRC = '/tmp/mutbase'   # snapshot of /verif/lean with its build output: cp -a /verif/lean /tmp/mutbase
LOG = '/verif/seeded/LOG.jsonl'

def sh(cmd, timeout=3600):
    try:
        p = subprocess.run(cmd, shell=True, cwd=ROOT, capture_output=True, text=True, timeout=timeout)
        return p.returncode, p.stdout + p.stderr
    except subprocess.TimeoutExpired:
        return 124, 'error: Verif/TIMEOUT.lean:1:1: timeout'

def sync():
    subprocess.run(f'rm -rf {ROOT} && cp -a {SRC} {ROOT}', shell=True, check=True)

DEPS = r'''
import Verif
open Lean
def names : List Name := [%s]
partial def deps (env : Environment) (n : Name) : StateM NameSet Unit := do
  if (← get).contains n then return
  unless (`Uni).isPrefixOf n do return
  modify (·.insert n)
  match env.find? n with
  | none => return
  | some c =>
    for m in c.type.getUsedConstants do deps env m
    match c.value? (allowOpaque := true) with
    | some v => for m in v.getUsedConstants do deps env m
    | none => return
#eval show MetaM Unit from do
  let env ← getEnv
  for n in names do
    let (_, s) := (deps env n).run {}
    IO.println s!"DEPS {n} {" ".intercalate (s.toList.map toString)}"
'''

def load_deps():
    man = json.load(open('/verif/MANIFEST.json'))
    names = [t for c in man['claims'] for t in c['theorems']]
    head = subprocess.run('git -C /verif rev-parse HEAD; md5sum /verif/MANIFEST.json', shell=True, capture_output=True, text=True).stdout
    cache = '/tmp/mut_deps.json'
    if os.path.exists(cache):
        d = json.load(open(cache))
        if d['head'] == head:
            return d['deps'], man
    f = '/tmp/mut_deps.lean'
    open(f, 'w').write(DEPS % ', '.join('`' + n for n in names))
    out = subprocess.run(f'lake env lean {f}', shell=True, cwd=SRC, capture_output=True, text=True).stdout
    deps = {}
    for l in out.splitlines():
        if l.startswith('DEPS '):
            w = l.split()
            deps[w[1]] = w[2:]
    json.dump({'head': head, 'deps': deps}, open(cache, 'w'))
    return deps, man

def decl_at(path, line):
    ns, last = [], '?'
    for i, l in enumerate(open(path), 1):
        if i > line: break
        m = re.match(r'namespace\s+(\S+)', l)
        if m: ns += m.group(1).split('.'); continue
        m = re.match(r'end\s+(\S+)', l)
        if m:
            k = len(m.group(1).split('.'))
            if ns[-k:] == m.group(1).split('.'): ns = ns[:-k]
            continue
        m = re.match(r'(?:@\[.*?\]\s*)?(?:private |protected |noncomputable )*(theorem|lemma|def|abbrev|structure|instance|example)\b\s*(\S*)', l)
        if m:
            last = 'example' if m.group(1) == 'example' else '.'.join(ns + [m.group(2)])
    return last

def assume(path, line):
    """Replace the proof of the declaration around the line (1-based) by sorry (scratch copy only)."""
    ls = open(path).read().split('\n')
    head = re.compile(r'(?:@\[.*?\]\s*)?(?:private |protected |noncomputable )*(theorem|lemma|def|abbrev|structure|instance|example|namespace|end|open|set_option|section|/--|/-!|@\[)')
    a = line - 1
    while a >= 0 and not re.match(r'(?:@\[.*?\]\s*)?(?:private |protected |noncomputable )*(theorem|lemma|example)\b', ls[a]): a -= 1
    b = a + 1
    while b < len(ls) and not head.match(ls[b]): b += 1
    for i in range(a, b):
        k = ls[i].find(':= by')
        if k < 0 and re.search(r':=\s*$', ls[i]): k = ls[i].rfind(':=')
        if k >= 0 and (ls[i].rstrip().endswith(':= by') or ls[i].rstrip().endswith(':=') or i + 1 == b or i == a):
            ls[i:b] = [ls[i][:k] + ':= by sorry', '']
            open(path, 'w').write('\n'.join(ls))
            return True
    return False

def modules_of(t):
    short = t.split('Uni.Props.', 1)[1]
    for f in sorted(os.listdir('/verif/lean/Verif/Props')):
        if re.search(r'theorem\s+%s\b' % re.escape(short), open('/verif/lean/Verif/Props/' + f).read()):
            return 'Verif.Props.' + f[:-5]
    raise SystemExit('no module for ' + t)

def main():
    batch = runpy.run_path(sys.argv[1])['M']
    only = set(sys.argv[2:])
    deps, man = load_deps()
    claims_of = {}
    for c in man['claims']:
        for t in c['theorems']: claims_of.setdefault(t, set()).add(c['property'])
    man_of = {c['property']: c['theorems'] for c in man['claims']}
    for m in batch:
        if only and m['id'] not in only: continue
        sync()
        path = os.path.join(ROOT, 'Verif', m['file'])
        s = open(path).read()
        n = s.count(m['old'])
        if n != m.get('count', 1):
            print(m['id'], 'BAD PATTERN', n, flush=True); continue
        open(path, 'w').write(s.replace(m['old'], m['new']))
        targets = sorted(set(modules_of(t) for t in man_of[m['claim']]))
        rc, out = sh('lake build ' + ' '.join(targets) + ' 2>&1')
        if rc == 0:   # the claim survived: look for others
            rc, out = sh('lake build 2>&1')
        direct, mods, rounds, rc0, out0 = [], [], 0, rc, out
        while True:
            errs = sorted(set(re.findall(r'error: (Verif/\S+?\.lean):(\d+):', out)))
            new = []
            for f, l in errs:
                p = os.path.join(ROOT, f)
                d = decl_at(p, int(l)) if os.path.exists(p) else f
                if d not in direct: direct.append(d); new.append((f, int(l), d))
                if f not in mods: mods.append(f)
            dset = set(direct)
            affected = [t for t, ds in deps.items() if dset & set(ds)]
            props = sorted(set(p for t in affected for p in claims_of[t]))
            # a failing lemma below the claim's theorems hides them: take it as given and build on
            if rc == 0 or m['claim'] in props or not new or rounds == 6: break
            rounds += 1
            done = [assume(os.path.join(ROOT, f), l) for f, l, d in sorted(new, reverse=True)]
            if not all(done): break
            rc, out = sh('lake build ' + ' '.join(targets) + ' 2>&1')
        rc, out = rc0, out0
        wit = None
        if m.get('witness'):
            wf = '/tmp/mut_witness.lean'
            open(wf, 'w').write(m['witness'])
            mods_w = re.findall(r'^import (Verif\S+)', m['witness'], re.M)
            rb, ob = sh('lake build ' + ' '.join(mods_w))
            rw, ow = sh(f'lake env lean {wf}')
            wit = 'refuted' if rb == 0 and rw == 0 and 'error' not in ow else 'NOT refuted: ' + (ob if rb else ow)[-400:]
        caught = m['claim'] in props
        rec = {'id': m['id'], 'definition': m['definition'], 'file': 'lean/Verif/' + m['file'], 'edit': m['edit'], 'claim': m['claim'],
               'failed_proofs': direct, 'failed_modules': mods, 'theorems_failed': affected,
               'caught': bool(rc != 0 and caught), 'statement_refuted_on_edited_model': wit,
               'theorems_tightened': m.get('tightened', [])}
        if rc != 0 and not errs: rec['build_output'] = out[-500:]
        open(LOG, 'a').write(json.dumps(rec, ensure_ascii=False) + '\n')
        print(m['id'], 'caught' if rec['caught'] else ('FAIL-OTHER ' + ','.join(props) if rc else 'SURVIVED'), direct[:4], len(affected), wit, flush=True)
main()
