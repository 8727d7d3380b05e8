"""Generate Verif/Gen/ListTable.lean: the methods that list members of an object, by class or sorted.

Reads /repo as text only.  The listings of dictionaries (`arPackages`, `systems`) are modelled in Model/Tree and
Model/Registry and left out here.
"""
import os
import sys
sys.path.insert(0, os.path.dirname(__file__))
from armodel_ast import load_classes, classify

OUT = os.path.join(os.path.dirname(os.path.abspath(__file__)), '..', 'lean/Verif/Gen')
classes, dup = load_classes()
by = {}
for c in sorted(classes.values(), key=lambda c: (c.path, c.line)):
    for n, m in c.methods.items():
        k = classify(m)
        if k and k[0] == 'view' and k[1] not in ('arPackages', 'systems'):
            assert all(f in classes for f in k[2] or [])
            by.setdefault(c.path, []).append('  ⟨k!"%s", k!"%s", k!"%s", [%s], %s, %d⟩' % (
                c.name, n, k[1], ', '.join('k!"%s"' % f for f in k[2] or []), 'true' if k[3] else 'false', m.lineno))
out = ['import Verif.Model.Listing', '/-! Generated by `tools/gen_list.py` from `/repo/src/armodel/models/**`: every method that returns the members of an object',
       'filtered by class or sorted by short name. Each row cites its source file and line. -/', 'namespace Verif.Gen', 'open Verif Verif.Model', '']
for i, p in enumerate(by):
    out += ['/-- `%s` -/' % p, 'def listRows%02d : List ListRow := [' % i, ',\n'.join(by[p]) + ']', '']
out += ['/-- all listing methods -/', 'def listTable : List ListRow :=\n  ' + ' ++ '.join('listRows%02d' % i for i in range(len(by))), '', 'end Verif.Gen']
with open(os.path.join(OUT, 'ListTable.lean'), 'w') as f:
    f.write('\n'.join(out) + '\n')
print(sum(map(len, by.values())))
