#!/usr/bin/env python3
"""Regenerate MANIFEST.json and lean/Verif.lean from the theorem names in lean/Verif/Props."""
import glob, json, os, re
root = os.path.dirname(os.path.dirname(os.path.abspath(__file__)))
notes = json.load(open(os.path.join(root, 'tools', 'notes.json')))
thms = {}
mods = []
for f in sorted(glob.glob(root + '/lean/Verif/Props/**/*.lean', recursive=True)):
    mods.append(os.path.relpath(f, root + '/lean')[:-5].replace('/', '.'))
    ns = []
    for line in open(f):
        m = re.match(r'namespace (\S+)', line)
        if m:
            ns.append(m.group(1))
        m = re.match(r'end (\S+)', line)
        if m and ns and ns[-1] == m.group(1):
            ns.pop()
        m = re.match(r'(?:noncomputable )?theorem (C\d\d+)(_\S*)?', line)
        if m:
            thms.setdefault(m.group(1), []).append(f"{'.'.join(ns)}.{m.group(1)}{m.group(2) or ''}")
for f in sorted(glob.glob(root + '/lean/Verif/Conformance/*.lean')):
    mods.append(os.path.relpath(f, root + '/lean')[:-5].replace('/', '.'))
claims = []
for line in open(root + '/properties.jsonl'):
    p = json.loads(line)
    i = p['id']
    t = thms.get(i, [])
    bad = any('_refuted' in x or x.endswith('_partial') for x in t)
    n = notes.get(i, '')
    if not t:
        claims.append({"property": i, "status": "not_applicable", "theorems": [], "note": n or "not yet modelled"})
    else:
        claims.append({"property": i, "status": "partial" if bad else "proved", "theorems": t, "note": n})
ids = {c['property'] for c in claims}
assert not set(thms) - ids, set(thms) - ids
json.dump({"claims": claims}, open(root + '/MANIFEST.json', 'w'), indent=1, ensure_ascii=False)
open(root + '/lean/Verif.lean', 'w').write(''.join(f'import {m}\n' for m in mods))
print({s: sum(c['status'] == s for c in claims) for s in ('proved', 'partial', 'not_applicable')},
      sum(len(c['theorems']) for c in claims))
