#!/usr/bin/env python3
"""Regenerates lean/Verif.lean (imports) and MANIFEST.json from the theorem names
`C<nn>_*` in lean/Verif/Props and the notes in tools/notes.json."""
import re, os, json, glob
root = os.path.dirname(os.path.dirname(os.path.abspath(__file__)))
mods = sorted(p[len(root)+6:-5].replace('/', '.') for p in glob.glob(root+'/lean/Verif/**/*.lean', recursive=True))
open(root+'/lean/Verif.lean','w').write(''.join(f'import {m}\n' for m in mods))
thms = {}
for p in sorted(glob.glob(root+'/lean/Verif/Props/**/*.lean', recursive=True)):
    ns = []
    for line in open(p):
        m = re.match(r'namespace (\S+)', line)
        if m: ns.append(m.group(1)); continue
        m = re.match(r'end (\S+)', line)
        if m and ns and ns[-1] == m.group(1): ns.pop(); continue
        m = re.match(r'(?:@\[[^\]]*\]\s*)?theorem ((C\d+)(?:_\S+)?)(?:\s|$)', line)
        if m: thms.setdefault(m.group(2), []).append('.'.join(ns+[m.group(1)]))
notes = json.load(open(root+'/tools/notes.json')) if os.path.exists(root+'/tools/notes.json') else {}
claims = []
missing = []
for line in open(root+'/properties.jsonl'):
    if not line.strip(): continue
    pid = json.loads(line)['id']
    ts = thms.pop(pid, [])
    n = notes.get(pid, {})
    if not ts:
        missing.append(pid)
        if n.get('status') != 'not_applicable': continue
    st = n.get('status') or ('partial' if any(t.endswith('_partial') or t.endswith('_refuted') for t in ts) else 'proved')
    claims.append({'property': pid, 'status': st, 'theorems': ts, 'note': n.get('note', '')})
json.dump({'claims': claims}, open(root+'/MANIFEST.json','w'), indent=1)
print(len(claims), 'claims;', sum(c['status']=='proved' for c in claims), 'proved; missing', missing, 'unknown', list(thms))
