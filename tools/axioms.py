"""Writes AXIOMS.md: the axioms every claimed theorem depends on, as printed by Lean (#print axioms).
Run after `lake build`, in /verif."""
import json, subprocess, re
m = json.load(open('/verif/MANIFEST.json'))
names = []
for c in m['claims']:
    for t in c['theorems']:
        if t not in names:
            names.append(t)
src = 'import Verif\n' + ''.join(f'#print axioms {n}\n' for n in names)
open('/tmp/axioms.lean', 'w').write(src)
out = subprocess.run(['lake', 'env', 'lean', '/tmp/axioms.lean'], cwd='/verif/lean', capture_output=True, text=True).stdout
out = re.sub(r'\n\s+', ' ', out)
rows = {}
for n, ax in re.findall(r"'([^']+(?:'[^']*)?)' depends on axioms: \[([^\]]*)\]", out):
    rows[n] = ax
for n in re.findall(r"'(.+?)' does not depend on any axioms", out):
    rows[n] = 'none'
missing = [n for n in names if n not in rows]
assert not missing, missing
allowed = {'propext', 'Classical.choice', 'Quot.sound'}
used = set(a.strip() for v in rows.values() if v != 'none' for a in v.split(','))
assert used <= allowed, used
groups = {}
for n in names:
    groups.setdefault(rows[n], []).append(n.replace('Narp.Props.', ''))
with open('/verif/AXIOMS.md', 'w') as f:
    f.write('# Axioms of the claimed theorems\n\nPrinted by Lean (`#print axioms`), collected by `tools/axioms.py`. '
            'All names are in the namespace `Narp.Props`.\n')
    for k in sorted(groups, key=lambda k: len(groups[k])):
        f.write(f'\n## {k} ({len(groups[k])})\n\n' + ', '.join(sorted(groups[k])) + '\n')
print({k: len(v) for k, v in groups.items()})
