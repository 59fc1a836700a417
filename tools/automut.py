"""Generate seeded bugs mechanically: one small edit in one definition of the model.

usage: automut.py SEED COUNT [OLD_ROUND.py ...] > ROUND.py

With old rounds, definitions that these did not edit come first, and no edit is repeated.
"""
import glob, os, random, re, sys

ROOT = '/verif/lean/Verif/Model'
DECL = re.compile(r'^(?:@\[[^\]]*\]\s*)?(?:noncomputable\s+)?(def|abbrev|structure|inductive|theorem|instance)\b\s*(\S*)')
EXCS = ['.error .verification', '.error .valueError', '.error .error', '.error .invalidBundle']


def edits(line):
    """(old fragment position, replacement) pairs for one line of code"""
    out = []

    def sub(pattern, repl, name):
        for g in re.finditer(pattern, line):
            new = line[:g.start()] + (repl(g) if callable(repl) else repl) + line[g.end():]
            if new != line:
                out.append((name, new))

    if re.search(r'\bif\b|&&|\|\||∧|∨|decide|==', line):
        sub(r' ≠ ', ' = ', 'negate')
        sub(r'(?<=[\w)\]]) = (?=.*then)', ' ≠ ', 'negate')
        sub(r' < ', ' ≤ ', 'bound')
        sub(r' ≤ ', ' < ', 'bound')
        sub(r' && ', ' || ', 'connective')
        sub(r' \|\| ', ' && ', 'connective')
        sub(r' ∧ ', ' ∨ ', 'connective')
        sub(r' ∨ ', ' ∧ ', 'connective')
        sub(r'(?<![\w])!(?=[\w(])', '', 'negate')
        sub(r'\bif (?!h\w* :)(.*?) then \.error', lambda g: 'if False then .error', 'drop check')
    sub(r'\.error \.[a-zA-Z]+\b(?! [\w(])', lambda g: next(e for e in EXCS if e != g.group(0)), 'exception')
    sub(r'(?<![\w.#])(\d+)(?![\w.])', lambda g: str(int(g.group(1)) + 1), 'constant')
    sub(r'"([^"]+)"\.toList', lambda g: '"' + g.group(1) + 'x".toList', 'text')
    sub(r'\btrue\b', 'false', 'boolean')
    sub(r'\bfalse\b', 'true', 'boolean')
    sub(r'\.ok \(\)(?= *$)', '.error .verification', 'reject')
    sub(r'(?<== )(\(?[\w.]+\)?) \+\+ ([\w.]+)(?= *$)', lambda g: g.group(2) + ' ++ ' + g.group(1), 'order')
    # more operators: lists, options and choices
    sub(r'\.any\b', '.all', 'quantifier')
    sub(r'\.all\b', '.any', 'quantifier')
    sub(r'\.head\?', '.getLast?', 'end')
    sub(r'\.getLast\?', '.head?', 'end')
    sub(r'\.tail\b', '', 'tail')
    sub(r'\.reverse\b', '', 'reverse')
    sub(r'\bmin\b', 'max', 'extremum')
    sub(r'\bmax\b', 'min', 'extremum')
    sub(r' > ', ' ≥ ', 'bound')
    sub(r' ≥ ', ' > ', 'bound')
    sub(r' \+\+ [\w.]+(?= *[)\]},]|$)', '', 'drop part')
    sub(r' \+\+ \[[^\[\]]*\](?= *[)\]},]|$)', '', 'drop part')
    sub(r'(?<=\.ok \()(\w+) :: ', '', 'drop element')
    sub(r'(?<=, )([\w.]+), ([\w.]+)(?=\]|⟩)', lambda g: g.group(2) + ', ' + g.group(1), 'swap')
    sub(r'\bthen ([^ ]+(?: [^ ]+)?) else ([^ ]+(?: [^ ]+)?)$', lambda g: 'then ' + g.group(2) + ' else ' + g.group(1), 'swap branches')
    sub(r' \+ 1\b', '', 'off by one')
    sub(r' - 1\b', '', 'off by one')
    sub(r'\.fst\b', '.snd', 'component')
    sub(r'\.1\b', '.2', 'component')
    sub(r'\.2\b', '.1', 'component')
    sub(r'=> \.ok (\w+)$', '=> .error .verification', 'reject')
    sub(r'\bsome (\w+)(?=\s*$|,|⟩)', 'none', 'forget')
    sub(r'\.filter (\([^()]*\)|\w+)', '', 'drop filter')
    sub(r'\.take (\([^()]*\)|\w+)', '', 'drop take')
    sub(r'\.drop (\([^()]*\)|\w+)', '', 'drop drop')
    return out


def candidates():
    for p in sorted(glob.glob(ROOT + '/*.lean')):
        text = open(p).read()
        blank = re.sub(r'/-.*?-/', lambda g: re.sub(r'[^\n]', ' ', g.group(0)), text, flags=re.S)
        lines, kind, name = text.split('\n'), None, None
        for i, (l, b) in enumerate(zip(lines, blank.split('\n'))):
            m = DECL.match(b)
            if m:
                kind, name = m.groups()
            if kind not in ('def', 'abbrev') or not b.strip() or b.lstrip().startswith('--') or 'termination_by' in b or 'deriving' in b:
                continue
            for what, new in edits(l):
                # enough context to make the fragment unique
                k = 0
                while text.count('\n'.join(lines[max(0, i - k):i + 1])) != 1 and k < 30:
                    k += 1
                old = '\n'.join(lines[max(0, i - k):i + 1])
                if text.count(old) != 1:
                    continue
                yield dict(file='Model/' + os.path.basename(p), definition=name, old=old,
                           new='\n'.join(lines[max(0, i - k):i] + [new]), breaks=what)


def main():
    seed, count = int(sys.argv[1]), int(sys.argv[2])
    cs = list(candidates())
    print(len(cs), 'candidates', file=sys.stderr)
    done, touched = set(), set()
    for r in sys.argv[3:]:
        scope = {}
        exec(open(r).read(), scope)
        for m in scope['MUTANTS']:
            done.add((m['file'], m['new']))
            touched.add((m['file'], m['definition'].split('.')[-1]))
    random.seed(seed)
    random.shuffle(cs)
    per, picked = {}, []
    for c in cs:
        k = (c['file'], c['definition'].split('.')[-1])
        if (c['file'], c['new']) in done:
            continue
        if per.get(k, 0) < (1 if k in touched else 2):
            per[k] = per.get(k, 0) + 1
            picked.append((k in touched, c))
    picked.sort(key=lambda x: x[0])
    print(len([p for p in picked if not p[0]]), 'in new definitions', file=sys.stderr)
    picked = [c for _, c in picked[:count]]
    print('"""Seeded bugs generated by tools/automut.py %d %d"""\n\nMUTANTS = [' % (seed, count))
    for i, c in enumerate(picked, 1):
        c['id'] = 'a%d_%03d' % (seed, i)
        print('    ' + repr(c) + ',')
    print(']')


main()
