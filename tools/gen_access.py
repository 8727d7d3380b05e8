"""Emit Gen/AccessTable.lean: constructors and accessor methods of every model class.

Reads /repo as text only (ast).  Per class: the steps of ``__init__`` that concern attributes, and every own
method with the shape it has (``get``/``set``/``add``; ``other`` when it has none of these shapes).
"""
import ast
import os
from armodel_ast import load_classes, classify, mro, strip_doc, strip_imports, is_self_attr, args, is_return_self
from leanemit import emit_bst

OUT = os.path.join(os.path.dirname(os.path.abspath(__file__)), '..', 'lean/Verif/Gen')
classes, dup = load_classes()

def is_prop(cname, field):
    """is `field` a property of the class or of a class derived from it?  Then accessing it is a method call."""
    return any(cname in mro(classes, c) and any(field in classes[k].methods for k in mro(classes, c)) for c in classes)


def value(v, a):
    u = ast.unparse(v)
    if u == 'None':
        return '.none'
    if u in ('[]', 'list()'):
        return '.nil'
    if isinstance(v, ast.Name) and v.id in a:
        return '.arg'
    return '.other'


def assigns(body, a, cname):
    """the steps of a constructor body"""
    res = []
    for s in strip_imports(strip_doc(body)):
        if isinstance(s, ast.Assign) and len(s.targets) == 1 and is_self_attr(s.targets[0]):
            t, v = s.targets[0].attr, s.value
        elif isinstance(s, ast.AnnAssign) and is_self_attr(s.target):
            if s.value is None:
                continue                    # a bare annotation assigns nothing
            t, v = s.target.attr, s.value
        else:
            u = ast.unparse(s)
            if u.startswith('super().__init__('):
                res.append('.sup %d' % len(s.value.args))
            elif isinstance(s, ast.Expr) and isinstance(s.value, ast.Call) and isinstance(s.value.func, ast.Attribute) and s.value.func.attr == '__init__':
                res.append('.base k!"%s" %d' % (s.value.func.value.id, len(s.value.args) - 1))
            elif u == 'self.clear()':
                assert cname == 'AbstractAUTOSAR'
                assert [k for k in classes if 'AbstractAUTOSAR' in mro(classes, k) and 'clear' in classes[k].methods] == ['AbstractAUTOSAR']
                res += assigns(classes[cname].methods['clear'].body, [], cname)
            elif isinstance(s, ast.If) and u.startswith('if type(self) is '):
                assert not s.orelse and len(s.body) == 1 and ast.unparse(s.body[0]).startswith('raise TypeError(')
                res.append('.guard k!"%s"' % ast.unparse(s.test.comparators[0]))
            elif u == 'pass' or (cname == 'AUTOSAR' and '__instance' in u) or u.startswith('super().clear()'):
                pass
            else:
                print('SKIPPED', cname, u[:100])
            continue
        if is_prop(cname, t):
            continue
        res.append('.field k!"%s" %s' % (t, value(v, a)))
    return res


def shape(c, n, m):
    k = classify(m)
    if k is None or k[0] not in ('get', 'set', 'add'):
        return '.other'
    if is_prop(c.name, k[1]) or k[1].startswith('__'):
        return '.other'
    b = lambda x: 'true' if x else 'false'
    if k[0] == 'get':
        return '.get k!"%s"' % k[1]
    if k[0] == 'set':
        return '.set k!"%s" %s' % (k[1], b(k[2]))
    return '.add k!"%s" %s %s' % (k[1], b(k[2]), b(k[3]))


def main():
    rows = []
    cnt = {}
    for c in sorted(classes.values(), key=lambda c: (c.path, c.line)):
        ini = c.methods.get('__init__')
        i = 'none'
        if ini is not None:
            assert not ini.args.defaults and not ini.args.kwonlyargs and not ini.args.vararg and not ini.args.kwarg
            i = 'some (%d, [%s])' % (len(args(ini)), ', '.join(assigns(ini.body, args(ini), c.name)))
        ms = []
        for n, m in c.methods.items():
            if n.startswith('__') or any(ast.unparse(d) == 'property' or ast.unparse(d).endswith('.setter') for d in m.decorator_list):
                continue
            s = shape(c, n, m)
            cnt[s.split()[0]] = cnt.get(s.split()[0], 0) + 1
            ms.append('(k!"%s", %s) /- %d -/' % (n, s, m.lineno))
        rows.append((c.name, '⟨%s, %s,\n     [%s]⟩' % ('true' if 'ABC' in c.bases else 'false', i, ',\n      '.join(ms)), '%s:%d' % (c.path.replace('src/armodel/models/', ''), c.line)))
    out = ['import Verif.Model.Access', 'import Verif.Model.Bst', '/-! Generated by `tools/gen_access.py` from `/repo/src/armodel/models/**`: the constructor steps and the',
           'methods of every class with the shape of their body; each class cites its file and line, each method its line. -/', 'namespace Verif.Gen', 'open Verif Verif.Model', '']
    out += emit_bst('accTable', 'ClassAcc', rows, 'class name with its constructor and methods')
    out.append('end Verif.Gen')
    open(OUT + '/AccessTable.lean', 'w').write('\n'.join(out) + '\n')
    print(len(rows), cnt)


main()
