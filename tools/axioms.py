"""Writes the axioms of the theorems in MANIFEST.json, grouped, to the end of DESIGN.md."""
import json
import re
import subprocess
import tempfile

names = [t for c in json.load(open('/verif/MANIFEST.json'))['claims'] for t in c['theorems']]
names = list(dict.fromkeys(names))
with tempfile.NamedTemporaryFile('w', suffix='.lean', delete=False) as f:
    f.write('import Verif\n' + ''.join('#print axioms %s\n' % n for n in names))
out = subprocess.run(['lake', 'env', 'lean', f.name], cwd='/verif/lean', capture_output=True, text=True).stdout
out = re.sub(r'\n\s+', ' ', out)
groups = {}
for n in names:
    m = re.search(r"'%s' (depends on axioms: \[(.*?)\]|does not depend)" % re.escape(n), out)
    groups.setdefault(m.group(2) or 'none', []).append(n.replace('Verif.Props.', ''))
text = ''.join('* `%s` (%d): %s\n' % (a, len(l), ' '.join(l)) for a, l in sorted(groups.items(), key=lambda g: len(g[0])))
design = open('/verif/DESIGN.md').read()
mark = '<!-- axioms -->\n'
open('/verif/DESIGN.md', 'w').write(design[:design.index(mark)] + mark + text)
