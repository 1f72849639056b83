#!/usr/bin/env python3
"""Writes DESIGN.md section 8: the axioms of every theorem in MANIFEST.json (runs `#print axioms` on a scratch file)."""
import json, re, subprocess, tempfile, os, collections
root = os.path.dirname(os.path.dirname(os.path.abspath(__file__)))
m = json.load(open(root + '/MANIFEST.json'))
names = []
for c in m['claims']:
    for t in c['theorems']:
        if t not in names: names.append(t)
with tempfile.NamedTemporaryFile('w', suffix='.lean', delete=False) as f:
    f.write('import Verif\n' + ''.join('#print axioms %s\n' % n for n in names))
out = subprocess.run(['lake', 'env', 'lean', f.name], cwd=root + '/lean', capture_output=True, text=True).stdout
os.unlink(f.name)
out = re.sub(r'\n\s+', ' ', out)
groups = collections.OrderedDict()
seen = set()
for l in out.split('\n'):
    x = re.match(r"'(\S+)' (?:does not depend on any axioms|depends on axioms: \[(.*)\])", l)
    if x:
        seen.add(x.group(1)); groups.setdefault(x.group(2) or 'none', []).append(x.group(1).replace('Qrpc.', '', 1))
    elif l.strip(): raise SystemExit('unexpected: ' + l)
assert seen == set(names), set(names) - seen
txt = '## 8. Axioms of each theorem\n\nAs printed by `#print axioms` for the %d theorems named in the manifest.\n' % len(names)
for g in sorted(groups, key=lambda g: (g == 'none', -len(groups[g]))):
    txt += '\n**%s** (%d): %s\n' % (g if g != 'none' else 'no axioms', len(groups[g]), ', '.join('`%s`' % n for n in groups[g]))
p = root + '/DESIGN.md'
s = open(p).read()
i = s.find('## 8. Axioms of each theorem')
s = (s if i < 0 else s[:i]).rstrip() + '\n\n' + txt
open(p, 'w').write(s)
print({g: len(v) for g, v in groups.items()})
