#!/usr/bin/env python3
"""Mutation tests of the theorems (run in a scratch copy, never in /verif/lean).

usage: mutate.py mutations.json results.jsonl [id ...]

Each mutation replaces one unique piece of text of the model.  The project is rebuilt; the proof of every declaration that no longer
checks is replaced by `sorry`, until the modules with the expected properties build.  The property theorems whose axioms then contain `sorryAx` are the ones the
mutation breaks."""
import json, os, re, shutil, subprocess, sys, time

BASE, WORK = '/tmp/mut/base', '/tmp/mut/work'
DECL = re.compile(r'^(?:@\[[^\]]*\]\s*)?(?:private |protected |noncomputable |local )*(theorem|lemma|example|instance|def|abbrev|structure|inductive)\b')
STOP = re.compile(r'^(/--|/-!|/- |@\[|theorem|lemma|example|instance|def|abbrev|structure|inductive|end\b|namespace|section|variable|open|set_option|#|private|protected|noncomputable|local|include|omit|--)')

def reset():
    os.makedirs(WORK, exist_ok=True)
    for d in os.listdir(WORK):
        p = os.path.join(WORK, d)
        shutil.rmtree(p) if os.path.isdir(p) and not os.path.islink(p) else os.remove(p)
    subprocess.run(['cp', '-a', BASE + '/.', WORK], check=True)

def body_start(text):
    """index of the end of the statement"""
    depth, i, n = 0, 0, len(text)
    while i < n:
        c = text[i]
        if text.startswith('--', i):
            i = text.find('\n', i)
            if i < 0: return None
            continue
        if c in '([{⟨': depth += 1
        elif c in ')]}⟩': depth -= 1
        elif depth == 0 and text.startswith(':=', i): return i
        elif depth == 0 and c == '\n' and re.match(r'\n\s+\| ', text[i:]) and not re.search(r'\bmatch\b[^\n]*\bwith\b', text[:i]): return i
        i += 1
    return None

def patch(path, lineno):
    lines = open(path).read().split('\n')
    s = lineno - 1
    while s >= 0 and not DECL.match(lines[s]): s -= 1
    if s < 0: return None
    e = s + 1
    while e < len(lines) and not STOP.match(lines[e]): e += 1
    text = '\n'.join(lines[s:e])
    kind = DECL.match(lines[s]).group(1)
    m = re.match(r'.*?\b(?:theorem|lemma|instance|def|abbrev|structure|inductive)\s+([^\s:({\[]+)', lines[s])
    name = m.group(1) if m else 'example'
    if kind == 'example': new = 'example : True := trivial'
    elif kind in ('theorem', 'lemma', 'instance'):
        b = body_start(text)
        if b is None or text[b:].strip() == ':= sorry': return None
        new = text[:b].rstrip() + ' := sorry'
    else: return None
    out = lines[:s] + new.split('\n') + [''] + lines[e:]
    open(path, 'w').write('\n'.join(out))
    return kind, name

def targets(mu):
    """the property modules with a theorem of an expected property (all of them when none is expected)"""
    mods, thms = [], []
    d = os.path.join(BASE, 'Verif', 'Props')
    for f in sorted(os.listdir(d)):
        names = re.findall(r'^theorem (C\d+_\S+)', open(os.path.join(d, f)).read(), re.M)
        if any(n.split('_')[0] in mu['expect'] for n in names) or not mu['expect']:
            mods.append('Verif.Props.' + f[:-5]); thms += names
    return mods, thms

def run(mu):
    mods, thms = targets(mu)
    reset()
    f = os.path.join(WORK, 'Verif', mu['file'])
    t = open(f).read()
    assert t.count(mu['old']) == 1, (mu['id'], 'occurrences', t.count(mu['old']))
    open(f, 'w').write(t.replace(mu['old'], mu['new']))
    failed, examples, t0, status = [], 0, time.time(), 'ok'
    for it in range(80):
        try:
            r = subprocess.run(['lake', 'build'] + mods, cwd=WORK, capture_output=True, text=True, timeout=2400)
        except subprocess.TimeoutExpired:
            subprocess.run(['pkill', '-f', WORK]); status = 'timeout'; break
        out = r.stdout + r.stderr
        errs = {}
        for m in re.finditer(r'^error: (Verif/\S+\.lean):(\d+):(\d+)', out, re.M):
            errs.setdefault(m.group(1), set()).add(int(m.group(2)))
        if not errs:
            if r.returncode != 0: status = 'failed: ' + out[-400:]
            break
        bad = False
        for path, ls in errs.items():
            full = os.path.join(WORK, path)
            lines = open(full).read().split('\n')
            starts = set()      # first lines of the failing declarations
            for l in ls:
                s = min(l, len(lines)) - 1
                if re.match(r'/--|@\[|set_option|omit|open|include', lines[s]):   # an error at the comment before a declaration
                    while s < len(lines) - 1 and not DECL.match(lines[s]): s += 1
                while s >= 0 and not DECL.match(lines[s]): s -= 1
                starts.add(s + 1)
            for l in sorted(starts, reverse=True):
                p = patch(full, l) if l > 0 else None
                if p is None: bad = True; failed.append(path + ':' + str(l) + '?'); break
                if p[0] == 'example': examples += 1
                else: failed.append(p[1])
            if bad: break
        if bad: status = 'invalid'; break
    broken = []
    if status == 'ok':
        open(WORK + '/A.lean', 'w').write(''.join('import %s\n' % x for x in mods) + ''.join('#print axioms Verif.%s\n' % x for x in thms))
        r = subprocess.run(['lake', 'env', 'lean', 'A.lean'], cwd=WORK, capture_output=True, text=True)
        for m in re.finditer(r"'Verif\.(\S+)' depends on axioms: \[([^\]]*)\]", r.stdout):
            if 'sorryAx' in m.group(2): broken.append(m.group(1))
    return dict(id=mu['id'], status=status, seconds=int(time.time() - t0), failed=failed, examples=examples, modules=mods, broken=broken)

if __name__ == '__main__':
    mus = json.load(open(sys.argv[1]))
    done = set()
    if os.path.exists(sys.argv[2]):
        done = {r['id'] for r in map(json.loads, open(sys.argv[2])) if r['status'] == 'ok'}
    mus = [mu for k in range(6) for mu in mus[k::6]]
    for mu in mus:
        if (sys.argv[3:] and mu['id'] not in sys.argv[3:]) or mu['id'] in done: continue
        try: res = run(mu)
        except AssertionError as e: res = dict(id=mu['id'], status=str(e))
        open(sys.argv[2], 'a').write(json.dumps(res) + '\n')
