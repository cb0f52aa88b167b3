#!/usr/bin/env python3
"""Rewrites the table of axioms in DESIGN.md from `#print axioms` of every theorem in MANIFEST.json.
Run from /verif after `lake build` in lean/."""
import collections, json, re, subprocess, tempfile
T = [t for c in json.load(open('MANIFEST.json'))['claims'] for t in c['theorems']]
with tempfile.NamedTemporaryFile('w', suffix='.lean', delete=False) as f:
    f.write('import Verif\n' + ''.join(f'#print axioms {t}\n' for t in T))
out = subprocess.run(['lake', 'env', 'lean', f.name], cwd='lean', capture_output=True, text=True).stdout
out = re.sub(r'\n\s+', ' ', out)
d = collections.OrderedDict()
n = 0
for m in re.finditer(r"'([^']+)' (?:depends on axioms: \[([^\]]*)\]|does not depend on any axioms)", out):
    d.setdefault(m.group(2) or 'none', []).append(m.group(1).split('.')[-1])
    n += 1
assert n == len(T), (n, len(T))
block = '\n'.join(f'* {k} ({len(v)}): {", ".join(v)}' for k, v in sorted(d.items(), key=lambda x: len(x[0])))
s = open('DESIGN.md').read()
a, b = '<!-- axioms -->\n', '<!-- end axioms -->'
i, j = s.index(a) + len(a), s.index(b)
open('DESIGN.md', 'w').write(s[:i] + block + '\n' + s[j:])
print({k: len(v) for k, v in d.items()})
