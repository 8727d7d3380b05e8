"""Emit Gen/NewTable.lean: every place of /repo/src/armodel that constructs an object of a model class."""
import ast
import glob
import os
from armodel_ast import load_classes

OUT = os.path.join(os.path.dirname(os.path.abspath(__file__)), '..', 'lean/Verif/Gen')
ROOT = '/repo/src/armodel/'
classes, dup = load_classes()

out = ['import Verif.Model.Key', '/-! Generated by `tools/gen_new.py`: every call `C(...)` of a class of `/repo/src/armodel/models/**` in `/repo/src/armodel/**`',
       '(parser, models and command line tools): the class and the number of arguments, with the lines.  Calls of the same class with the same',
       'number of arguments in one file share a row. -/', 'namespace Verif.Gen', 'open Verif', '']
names = []
n = 0
for f in sorted(glob.glob(ROOT + '**/*.py', recursive=True)):
    sites = {}
    for c in ast.walk(ast.parse(open(f).read())):
        if isinstance(c, ast.Call):
            nm = c.func.id if isinstance(c.func, ast.Name) else c.func.attr if isinstance(c.func, ast.Attribute) else None
            if nm in classes:
                assert isinstance(c.func, ast.Name) and not c.keywords and not any(isinstance(a, ast.Starred) for a in c.args), (f, c.lineno)
                sites.setdefault((nm, len(c.args)), []).append(c.lineno)
                n += 1
    if sites:
        nm = 'newRows%02d' % len(names)
        names.append(nm)
        out.append('/-- `%s` -/' % f[len(ROOT):])
        out.append('def %s : List (Key × Nat) := [\n%s]\n' % (nm, ',\n'.join('  (k!"%s", %d) /- %s -/' % (c, a, ', '.join(map(str, sorted(ls)))) for (c, a), ls in sorted(sites.items(), key=lambda e: e[1][0]))))
out.append('/-- all of them -/\ndef newTable : List (Key × Nat) :=\n  ' + ' ++ '.join(names) + '\n')
out.append('end Verif.Gen')
open(OUT + '/NewTable.lean', 'w').write('\n'.join(out) + '\n')
print('calls', n, 'files', len(names))
