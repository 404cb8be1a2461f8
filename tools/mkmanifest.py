#!/usr/bin/env python3
"""Regenerate MANIFEST.json and section 5 of DESIGN.md from the theorems in lean/Verif/Props and their doc comments."""
import json, re, glob, os
root = os.path.dirname(os.path.dirname(os.path.abspath(__file__)))
ths, docs = {}, {}
for f in sorted(glob.glob(root + '/lean/Verif/Props/*.lean')):
    src = open(f).read()
    for m in re.finditer(r'^theorem ((C\d{2,3})_[\w\']+)', src, re.M):
        ths.setdefault(m.group(2), []).append('TcpInfo.' + m.group(1))
        d = re.search(r'/--((?:(?!-/).)*)-/\s*$', src[:m.start()], re.S)
        docs[m.group(1)] = ' '.join(d.group(1).split()) if d else ''
notes = json.load(open(root + '/tools/notes.json'))
props = [json.loads(l) for l in open(root + '/properties.jsonl')]
claims, rows = [], []
for p in props:
    i = p['id']
    t = ths.get(i, [])
    if not t:
        claims.append({'property': i, 'status': 'partial', 'theorems': [], 'note': 'not yet proved'})
        continue
    names = [x.split('.')[1] for x in t]
    par = [x for x in names if x.endswith('_partial')]
    vio = [x for x in names if '_violated' in x]
    for x in par + vio:
        if not docs[x]: print('no doc comment:', x)
    note = ' '.join([notes[i]] if i in notes else []) 
    note = ' '.join([note] + ['[%s] %s' % (x, docs[x]) for x in par + vio]).strip()
    if vio:
        note += ' The *_violated theorems are machine-checked counterexamples: the property as stated is false of the code.'
        rows.append('### %s: %s\n\n%s\n' % (i, p['title'], '\n'.join('* `%s`: %s' % (x, docs[x]) for x in vio + par)))
    claims.append({'property': i, 'status': 'partial' if par or vio else 'proved', 'theorems': t, 'note': note})
json.dump({'claims': claims}, open(root + '/MANIFEST.json', 'w'), indent=1)
head = '## 5. Disagreements between code and expected property'
d = open(root + '/DESIGN.md').read()
i = d.index(head)
open(root + '/DESIGN.md', 'w').write(d[:i] + head + '\n\nGenerated by `tools/mkmanifest.py` from the doc comments of the theorems. `_violated`: counterexample; `_partial`: what holds.\n\n' + '\n'.join(rows))
print({s: sum(c['status'] == s for c in claims) for s in ('proved', 'partial')}, 'without theorem:', [c['property'] for c in claims if not c['theorems']])
