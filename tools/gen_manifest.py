#!/usr/bin/env python3
"""Regenerates MANIFEST.json, lean/Verif.lean and lean/Verif/Audit.lean from the Props files.

A property counts as "partial" when one of its theorems is named `*_partial*` or `*_false*`;
notes come from tools/notes.json."""
import json, os, re, glob
root = os.path.dirname(os.path.dirname(os.path.abspath(__file__)))
notes = json.load(open(root + '/tools/notes.json'))
claims, names = [], []
for f in sorted(glob.glob(root + '/lean/Verif/Props/*.lean')):
    for t in re.findall(r'^theorem (C\d\d+_\w+)', open(f).read(), re.M):
        c = t.split('_')[0]
        names.append('Zcm.' + t)
        e = next((x for x in claims if x['property'] == c), None)
        if e is None:
            e = {"property": c, "status": "proved", "theorems": [], "note": notes.get(c, "")}
            claims.append(e)
        e["theorems"].append('Zcm.' + t)
        if '_partial' in t or '_false' in t: e["status"] = "partial"
# theorems that also serve another property
extra = {"C11": ["Zcm.C01_ivec2", "Zcm.C01_ivec3", "Zcm.C01_ivec4"]}
for c, l in extra.items():
    for e in claims:
        if e["property"] == c: e["theorems"] += l
claims.sort(key=lambda e: int(e["property"][1:]))
for e in claims:
    if e["status"] == "partial" and not e["note"]: print("no note for partial", e["property"])
json.dump({"claims": claims}, open(root + '/MANIFEST.json', 'w'), indent=1, ensure_ascii=False)
mods = []
for d in ('Model', 'Spec', 'Lemmas', 'Props', 'Conformance'):
    mods += sorted(os.path.relpath(x, root + '/lean')[:-5].replace('/', '.')
                   for x in glob.glob(f'{root}/lean/Verif/{d}/*.lean'))
open(root + '/lean/Verif.lean', 'w').write(''.join(f'import {m}\n' for m in mods) + 'import Verif.Audit\n')
props = [m for m in mods if '.Props.' in m]
open(root + '/lean/Verif/Audit.lean', 'w').write(
    ''.join(f'import {m}\n' for m in props) +
    '\n/-! Axioms used by every property theorem (generated by tools/gen_manifest.py). -/\n\n' +
    ''.join(f'#print axioms {n}\n' for n in names))
print(len(claims), 'claims', len(names), 'theorems')
