"""Rebuild lean/Verif.lean (imports) and MANIFEST.json (from the claim table below and the theorem names C??_*)."""
import glob, json, os, re
root = os.path.dirname(os.path.dirname(os.path.abspath(__file__)))
mods = sorted(os.path.relpath(p, root + '/lean')[:-5].replace('/', '.') for p in glob.glob(root + '/lean/Verif/**/*.lean', recursive=True))
open(root + '/lean/Verif.lean', 'w').write(''.join('import %s\n' % m for m in mods))
thms = {}
for p in sorted(glob.glob(root + '/lean/Verif/Props/**/*.lean', recursive=True)):
    ns = []
    for line in open(p):
        m = re.match(r'namespace (\S+)', line)
        if m: ns.append(m.group(1))
        m = re.match(r'end (\S+)', line)
        if m and ns and ns[-1] == m.group(1): ns.pop()
        m = re.match(r'(?:private )?theorem ((C\d\d+)_\S*)', line)
        if m:
            pid = m.group(2)
            thms.setdefault(pid, []).append('.'.join(ns + [m.group(1)]))
notes = json.load(open(root + '/tools/notes.json'))
claims = []
for line in open(root + '/properties.jsonl'):
    pid = json.loads(line)['id']
    if pid not in thms and pid not in notes: continue
    n = notes.get(pid, {})
    partial = any('_partial' in t.split('.')[-1] for t in thms.get(pid, []))
    status = n.get('status', 'partial' if partial else 'proved')
    claims.append({'property': pid, 'status': status, 'theorems': thms.get(pid, []), 'note': n.get('note', '')})
json.dump({'claims': claims}, open(root + '/MANIFEST.json', 'w'), indent=1)
print(len(claims), 'claims', sum(c['status'] == 'proved' for c in claims), 'proved')
