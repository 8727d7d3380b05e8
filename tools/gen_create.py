"""Generate Verif/Gen/CreateTable.lean and Verif/Gen/Hierarchy.lean from the model classes."""
import os
import sys
sys.path.insert(0, os.path.dirname(__file__))
from armodel_ast import load_classes, classify, mro, strip_doc, strip_imports
from leanemit import emit_bst
import ast

OUT = '/verif/lean/Verif/Gen'
os.makedirs(OUT, exist_ok=True)
classes, dup = load_classes()
STORE = {None: '.nowhere', 'list': '.list', 'field': '.field'}


def rows():
    for c in sorted(classes.values(), key=lambda c: (c.path, c.line)):
        for n, m in c.methods.items():
            if n.startswith('__'):
                continue
            k = classify(m)
            body = strip_imports(strip_doc(m.body))
            if k is None and c.name == 'RunnableEntity' and n.startswith('create') and len(body) == 1 and '_createVariableAccess' in ast.unparse(body[0]):
                # return self._createVariableAccess(short_name, self.<list>)  (SwcInternalBehavior/__init__.py:227-234)
                k = ('create', 'VariableAccess', 'untyped', True, ('list', body[0].value.args[1].attr), 'typed')
            if k and k[0] == 'create':
                g = g0 = k[2]
                if not isinstance(g, str):
                    g = {'notin': 'never', 'fieldNone': 'fieldNone', 'listName': 'listName'}[g[0]]
                yield c, n, m.lineno, k[1], g, k[3], k[4] and k[4][0], k[5], (k[4][1] if k[4] else (g0[1] if isinstance(g0, tuple) and g0[0] == 'fieldNone' else ''))


out = ['import Verif.Model.Create', '/-! Generated by `tools/gen_create.py` from `/repo/src/armodel/models/**`: every method `createX(short_name)`',
       'whose body is one of the patterns of `Verif/Model/Create.lean`. Each row cites its source file and line. -/', 'namespace Verif.Gen', 'open Verif Verif.Model', '']
by = {}
order = []
for r in rows():
    c = r[0]
    if c.path not in by:
        by[c.path] = []
        order.append(c.path)
    by[c.path].append(r)
names = []
n = 0
for i, pth in enumerate(order):
    nm = 'createRows%02d' % i
    names.append(nm)
    out.append('/-- `%s` -/' % pth)
    out.append('def %s : List CreateRow := [' % nm)
    ls = []
    for c, m, line, tgt, g, add, st, ret, at in by[pth]:
        n += 1
        ls.append('  ⟨k!"%s", k!"%s", k!"%s", ⟨.%s, %s, %s, .%s⟩, k!"%s", %d⟩' % (c.name, m, tgt, g, 'true' if add else 'false', STORE[st], ret, at, line))
    out.append(',\n'.join(ls) + ']')
    out.append('')
out.append('/-- all create methods -/')
out.append('def createTable : List CreateRow :=\n  ' + ' ++ '.join(names))
out.append('')
out.append('end Verif.Gen')
open(OUT + '/CreateTable.lean', 'w').write('\n'.join(out) + '\n')
print('create rows', n)

out = ['import Verif.Model.Bst', '/-! Generated by `tools/gen_create.py`: the classes of `/repo/src/armodel/models/**` with their ancestors',
       '(method resolution order, the class itself first; only classes defined in the repository). -/', 'namespace Verif.Gen', 'open Verif', '']
cl = sorted(classes.values(), key=lambda c: (c.path, c.line))
out += emit_bst('classTable', 'List Key', [(c.name, '[%s]' % ', '.join('k!"%s"' % x for x in mro(classes, c.name)), '%s:%d' % (c.path.replace('src/armodel/models/', ''), c.line)) for c in cl],
                'class name with its ancestors')
out.append('end Verif.Gen')
open(OUT + '/Hierarchy.lean', 'w').write('\n'.join(out) + '\n')
print('classes', len(cl))
