"""Append the results of a round of seeded bugs to seeded/LOG.jsonl.

usage: seedlog.py ROUND.py RESULTS.jsonl [TIGHTENED.json [NOTES.json]]

Inconclusive results (see mutate.py) are not logged.

TIGHTENED.json maps ids of bugs to the theorems added or tightened because of them, NOTES.json to a remark.
"""
import json, runpy, sys

ms = {m['id']: m for m in runpy.run_path(sys.argv[1])['MUTANTS']}
tight = json.load(open(sys.argv[3])) if len(sys.argv) > 3 else {}
notes = json.load(open(sys.argv[4])) if len(sys.argv) > 4 else {}
with open('/verif/seeded/LOG.jsonl', 'a') as out:
    for l in open(sys.argv[2]):
        r = json.loads(l)
        if r['id'] not in ms:
            continue
        if not r['ok'] and not any(r['failed'].values()):
            print('inconclusive, not logged:', r['id'])
            continue
        m = ms[r['id']]
        note = dict(note=notes[r['id']]) if r['id'] in notes else {}
        out.write(json.dumps(dict(
            id=r['id'], definition=m['file'] + ':' + m['definition'], edit=dict(old=m['old'], new=m['new']), breaks=m['breaks'],
            theorems_failed=[f'{f}:{t}' for f, ts in r['failed'].items() for t in ts],
            survived=r['ok'], tightened=tight.get(r['id'], []), **note)) + '\n')
