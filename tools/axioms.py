"""Writes AXIOMS.md: the axioms each theorem of MANIFEST.json depends on (#print axioms)."""
import json, subprocess, re, os
root = os.path.dirname(os.path.dirname(os.path.abspath(__file__)))
claims = json.load(open(root + '/MANIFEST.json'))['claims']
src = 'import Verif\n' + ''.join(f'#print axioms {t}\n' for c in claims for t in c['theorems'])
open('/tmp/Axioms.lean', 'w').write(src)
out = subprocess.run(['lake', 'env', 'lean', '/tmp/Axioms.lean'], cwd=root + '/lean',
                     capture_output=True, text=True).stdout
out = re.sub(r'\n\s+', ' ', out)
ax = {}
for line in out.splitlines():
    if m := re.match(r"'(.*)' depends on axioms: \[(.*)\]", line):
        ax[m[1]] = m[2]
    elif m := re.match(r"'(.*)' does not depend on any axioms", line):
        ax[m[1]] = 'none'
with open(root + '/AXIOMS.md', 'w') as f:
    f.write('# Axioms of every manifest theorem\n\nMade by `python3 tools/axioms.py` from `#print axioms`.\n\n')
    groups = {}
    for c in claims:
        for t in c['theorems']:
            groups.setdefault(ax[t], []).append(t)
    for g in sorted(groups):
        f.write(f'## {g} ({len(groups[g])} theorems)\n\n' + '\n'.join('* `%s`' % t for t in groups[g]) + '\n\n')
print({g: len(v) for g, v in groups.items()})
