"""Writes MANIFEST.json from the theorem names in lean/Verif/Props and tools/notes.py."""
import json, re, glob, os
here = os.path.dirname(os.path.abspath(__file__))
root = os.path.dirname(here)
exec(open(here + '/notes.py').read())
th = {}
for f in sorted(glob.glob(root + '/lean/Verif/Props/*.lean')):
    for m in re.finditer(r'^theorem (C\d\d\w*)', open(f).read(), re.M):
        n = m.group(1)
        th.setdefault(n[:3], []).append('Dash7.' + n)
claims = []
for l in open(root + '/properties.jsonl'):
    i = json.loads(l)['id']
    if i not in th:
        continue
    st, note = STATUS.get(i, (None, ''))
    if st is None:
        st = 'partial' if any(x.endswith('_partial') for x in th[i]) else 'proved'
    claims.append(dict(property=i, status=st, theorems=th[i], note=note))
json.dump({"claims": claims}, open(root + '/MANIFEST.json', 'w'), indent=1)
print(len(claims), 'claims; not proved in full:', [c['property'] for c in claims if c['status'] != 'proved'])
