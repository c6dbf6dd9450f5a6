# Regenerates /verif/MANIFEST.json from the theorem names in lean/Verif/Props (C<nn>_...).
# status: notes below; default "proved" if no theorem is named _partial/_refuted, else "partial".
import json, re, glob, os
root = os.path.dirname(os.path.dirname(os.path.abspath(__file__)))
NOTES = json.load(open(os.path.join(root, 'tools', 'notes.json')))
ids = [json.loads(l)['id'] for l in open(os.path.join(root, 'properties.jsonl'))]
thms = {}
for f in sorted(glob.glob(os.path.join(root, 'lean/Verif/Props/*.lean'))):
    for m in re.finditer(r'^theorem (C\d\d+)_(\w+)', open(f).read(), re.M):
        thms.setdefault(m.group(1), []).append('X4.' + m.group(1) + '_' + m.group(2))
claims = []
for i in ids:
    t = thms.get(i, [])
    n = NOTES.get(i, {})
    st = n.get('status') or ('partial' if any('_partial' in x or '_refuted' in x for x in t) else 'proved')
    if not t and st == 'proved':
        st = 'partial'; n = {'note': n.get('note', 'no theorem yet')}
    claims.append(dict(property=i, status=st, theorems=t, note=n.get('note', '')))
json.dump({'claims': claims}, open(os.path.join(root, 'MANIFEST.json'), 'w'), indent=1)
print({s: sum(1 for c in claims if c['status'] == s) for s in ('proved', 'partial', 'not_applicable')},
      'without theorem:', [c['property'] for c in claims if not c['theorems']])
