"""Run seeded bugs against the theorems, in a scratch copy.

usage: [MUT_DIR=scratch] [MUT_SRC=lean project] [MUT_FAST=1] mutate.py MUTANTS.py [ID ...]

MUT_FAST stops a build soon after its first error, so that only some of the theorems that fail are listed.
A file `pause` in the scratch directory makes it wait before the next bug.

MUTANTS.py defines MUTANTS, a list of dicts with keys id, file (below lean/Verif), definition, old, new, breaks
and optionally count (number of occurrences of old, default 1).  Each is applied to a fresh copy, the copy is
built, and the theorems in which errors are reported are printed as one JSON line.  A build that fails without an
error in any theorem (Lean ran out of memory, say) says nothing about the theorems: it is marked `inconclusive`.
"""
import json, os, re, signal, subprocess, sys, threading, time, runpy

DIR = os.environ.get('MUT_DIR', '/tmp/mut')
SRC, BASE, WORK = os.environ.get('MUT_SRC', '/verif/lean'), DIR + '/base', DIR + '/work'
FAST = bool(os.environ.get('MUT_FAST'))
DECL = re.compile(r'^(?:@\[[^\]]*\]\s*)?(?:private\s+|protected\s+|noncomputable\s+)*(theorem|lemma|def|example|instance|abbrev|structure|inductive)\b\s*(\S*)')


def enclosing(path, line):
    """the declaration at a line; its documentation belongs to it"""
    name, comment = '?', False
    with open(path) as f:
        for i, l in enumerate(f, 1):
            if i > line and not comment:
                break
            if i <= line and l.startswith('/--'):
                comment = i == line or '-/' not in l
            if i < line and '-/' in l:
                comment = False
            m = DECL.match(l)
            if m:
                name = m.group(2) if m.group(1) != 'example' else f'example@{i}'
                comment = False
    return name


def copy(a, b):
    subprocess.run(['rm', '-rf', b], check=True)
    subprocess.run(['cp', '-a', a, b], check=True)


def build():
    """the exit code and the output of the build; with MUT_FAST it is stopped soon after the first error"""
    r = subprocess.Popen(['lake', 'build'], cwd=WORK, stdout=subprocess.PIPE, stderr=subprocess.STDOUT, text=True,
                         start_new_session=True)
    lines, timer = [], None
    for l in r.stdout:
        lines.append(l.rstrip('\n'))
        if FAST and timer is None and re.match(r'error: (\S+?\.lean):(\d+):\d+:', l):
            timer = threading.Timer(2, lambda: os.killpg(r.pid, signal.SIGKILL))
            timer.start()
    code = r.wait()
    if timer is not None:
        timer.cancel()
    return code, lines


def main():
    ms = runpy.run_path(sys.argv[1])['MUTANTS']
    only = set(sys.argv[2:])
    os.makedirs(DIR, exist_ok=True)
    copy(SRC, BASE)
    # errors are only due to a seeded bug if there are none without it
    copy(BASE, WORK)
    code, lines = build()
    if code != 0:
        sys.exit('the project does not build without any seeded bug:\n' + '\n'.join(l for l in lines if l.startswith('error')))
    out = open(DIR + '/results.jsonl', 'a')
    for m in ms:
        if only and m['id'] not in only:
            continue
        while os.path.exists(DIR + '/pause'):
            time.sleep(5)
        copy(BASE, WORK)
        p = os.path.join(WORK, 'Verif', m['file'])
        s = open(p).read()
        if s.count(m['old']) != m.get('count', 1):
            print('BAD', m['id'], s.count(m['old']), flush=True)
            continue
        open(p, 'w').write(s.replace(m['old'], m['new']))
        code, lines = build()
        failed = {}
        for l in lines:
            g = re.match(r'error: (\S+?\.lean):(\d+):\d+:', l)
            if g:
                f = os.path.join(WORK, g.group(1)) if not g.group(1).startswith('/') else g.group(1)
                failed.setdefault(os.path.relpath(f, os.path.join(WORK, 'Verif')), set()).add(enclosing(f, int(g.group(2))))
        res = dict(id=m['id'], definition=m['definition'], breaks=m['breaks'], ok=code == 0,
                   failed={k: sorted(v) for k, v in failed.items()})
        if code != 0 and not failed:
            res['inconclusive'] = [l for l in lines if l.startswith('error')]
        print(json.dumps(res), flush=True)
        out.write(json.dumps(res) + '\n')
        out.flush()


main()
