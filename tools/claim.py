#!/usr/bin/env python3
"""claim.py ID STATUS THM,THM NOTE - set one entry of MANIFEST.json; claim.py check - check all names exist."""
import glob, json, os, re, sys
root = os.path.dirname(os.path.dirname(os.path.abspath(__file__)))
src = ''.join(open(f).read() for f in glob.glob(root + '/lean/Verif/**/*.lean', recursive=True))
names = set(re.findall(r"theorem\s+([A-Za-z0-9_'.]+)", src))
ids = [json.loads(l)['id'] for l in open(root + '/properties.jsonl')]
path = root + '/MANIFEST.json'
claims = {c['property']: c for c in json.load(open(path))['claims']}
if sys.argv[1] != 'check':
    pid, status, thms, note = sys.argv[1:5]
    claims[pid] = {"property": pid, "status": status,
                   "theorems": ['TVP.' + t for t in thms.split(',') if t], "note": note}
for c in claims.values():
    assert c['property'] in ids and c['status'] in ('proved', 'partial', 'not_applicable'), c
    for t in c['theorems']:
        assert t.removeprefix('TVP.') in names, t
json.dump({"claims": [claims[i] for i in sorted(claims)]}, open(path, 'w'), indent=1)
print("missing", len([i for i in ids if i not in claims]))
