"""Write MANIFEST.json: every theorem of Verif/Props/Cxx.lean whose name starts with the property id,
with status and note from tools/status.json (default: proved)."""
import json, re, pathlib
root = pathlib.Path(__file__).resolve().parent.parent
status = json.loads((root / 'tools/status.json').read_text())
ids = [json.loads(l)['id'] for l in (root / 'properties.jsonl').read_text().splitlines() if l.strip()]
thms = {}
for f in sorted((root / 'lean/Verif').rglob('*.lean')):
    ns = []
    for line in f.read_text().splitlines():
        m = re.match(r'namespace (\S+)', line)
        if m: ns.append(m.group(1))
        m = re.match(r'end (\S+)', line)
        if m and ns and ns[-1] == m.group(1): ns.pop()
        m = re.match(r'theorem ((C\d\d)_\S+)', line)
        if m: thms.setdefault(m.group(2), []).append('.'.join(ns + [m.group(1)]))
claims = []
for i in ids:
    if i not in thms and i not in status: continue
    s = status.get(i, {})
    st = s.get('status', 'proved')
    claims.append({'property': i, 'status': st, 'theorems': thms.get(i, []), 'note': s.get('note', '')})
(root / 'MANIFEST.json').write_text(json.dumps({'claims': claims}, indent=1, ensure_ascii=False) + '\n')
print(len(claims), 'claims;', 'missing:', [i for i in ids if i not in thms])
