"""Print the axioms of every theorem in MANIFEST.json, grouped, as Markdown (needs a built project)."""
import collections
import json
import os
import re
import subprocess
import tempfile

root = os.path.dirname(os.path.dirname(os.path.abspath(__file__)))
claims = json.load(open(os.path.join(root, 'MANIFEST.json')))['claims']
names = [t for c in claims for t in c['theorems']]
src = 'import Verif\n' + ''.join('#print axioms %s\n' % (n if '.' in n else 'Verif.Props.' + n) for n in names)
with tempfile.NamedTemporaryFile('w', suffix='.lean', delete=False) as f:
    f.write(src)
out = subprocess.run(['lake', 'env', 'lean', f.name], cwd=os.path.join(root, 'lean'), capture_output=True, text=True).stdout
os.unlink(f.name)
groups = collections.defaultdict(list)
for m in re.finditer(r"'([^']+)' (?:depends on axioms: \[([^\]]*)\]|does not depend on any axioms)", out.replace('\n', ' ')):
    ax = ', '.join(sorted(x.strip() for x in (m.group(2) or '').split(',') if x.strip()))
    groups[ax].append(m.group(1).split('.')[-1])
with open(os.path.join(root, 'AXIOMS.md'), 'w') as f:
    f.write('# Axioms each theorem of MANIFEST.json depends on\n\nFrom `#print axioms`, by `tools/axioms.py`.\n')
    for ax in sorted(groups, key=len):
        f.write('\n## %s\n\n%s\n' % (ax or 'none', ', '.join('`%s`' % n for n in groups[ax])))
print({k: len(v) for k, v in groups.items()}, len(names))
