#!/usr/bin/env python3
"""Prints, for every theorem in MANIFEST.json, the axioms it depends on.
Run after `lake build`; writes AXIOMS.md next to MANIFEST.json."""
import json, os, re, subprocess, tempfile
root = os.path.dirname(os.path.dirname(os.path.abspath(__file__)))
claims = json.load(open(root + '/MANIFEST.json'))['claims']
names = [t for c in claims for t in c['theorems']]
src = 'import Verif\n' + ''.join(f'#print axioms {n}\n' for n in names)
with tempfile.NamedTemporaryFile('w', suffix='.lean', delete=False) as f:
    f.write(src)
out = subprocess.run(['lake', 'env', 'lean', f.name], cwd=root + '/lean', capture_output=True, text=True).stdout
os.unlink(f.name)
ax = {}
for m in re.finditer(r"'([^']*)' (?:depends on axioms: \[([^\]]*)\]|does not depend on any axioms)", out):
    ax[m.group(1)] = ' '.join((m.group(2) or 'none').split())
lines = ['# Axioms per theorem', '', 'Generated by tools/axioms.py from `#print axioms`.', '']
groups = {}
for n in names:
    groups.setdefault(ax.get(n, 'NOT FOUND'), []).append(n)
for a in sorted(groups):
    lines += [f'## {a} ({len(groups[a])} theorems)', ''] + [f'* {n}' for n in groups[a]] + ['']
open(root + '/AXIOMS.md', 'w').write('\n'.join(lines))
print({a: len(g) for a, g in groups.items()})
