"""Generate Verif/Gen/EnumTable.lean: the enumerations, their constants and the values their constructor allows.

Reads /repo as text only.
"""
import ast
import glob
import os

OUT = os.path.join(os.path.dirname(os.path.abspath(__file__)), '..', 'lean/Verif/Gen')
ROOT = '/repo/'
by = {}
for path in sorted(glob.glob(ROOT + 'src/armodel/models/**/*.py', recursive=True)):
    for c in ast.parse(open(path).read()).body:
        if not (isinstance(c, ast.ClassDef) and [ast.unparse(b) for b in c.bases] == ['AREnum']):
            continue
        consts, init = {}, None
        for s in c.body:
            if isinstance(s, ast.Assign):
                assert len(s.targets) == 1 and isinstance(s.value, ast.Constant) and isinstance(s.value.value, str)
                consts[s.targets[0].id] = s.value.value
            elif isinstance(s, ast.FunctionDef):
                assert s.name == '__init__', (c.name, s.name)
                init = s
            else:
                assert isinstance(s, ast.Expr) and isinstance(s.value, ast.Constant), ast.unparse(s)
        allowed = 'none'
        if init is not None and ast.unparse(init.args) == 'self':
            call, = [s for s in init.body if not (isinstance(s, ast.Expr) and isinstance(s.value, ast.Constant))]
            assert ast.unparse(call).startswith('super().__init__(') and len(call.value.args) == 1
            arg = call.value.args[0]
            assert isinstance(arg, (ast.List, ast.Tuple)), c.name
            vals = []
            for e in arg.elts:
                if isinstance(e, ast.Constant):
                    vals.append(e.value)
                else:
                    assert e.value.id == c.name, c.name
                    vals.append(consts[e.attr])
            allowed = 'some [%s]' % ', '.join('"%s"' % v for v in vals)
        by.setdefault(path[len(ROOT):], []).append('  ⟨k!"%s", [%s], %s, %d⟩' % (
            c.name, ', '.join('(k!"%s", "%s")' % e for e in consts.items()), allowed, c.lineno))
out = ['import Verif.Model.Enum', '/-! Generated by `tools/gen_enum.py` from `/repo/src/armodel/models/**`: every class derived from `AREnum`, with its constants and the',
       'values it passes to the constructor of `AREnum`. Each row cites its source file and line. -/', 'namespace Verif.Gen', 'open Verif Verif.Model', '']
for i, p in enumerate(by):
    out += ['/-- `%s` -/' % p, 'def enumRows%02d : List EnumRow := [' % i, ',\n'.join(by[p]) + ']', '']
out += ['/-- all enumerations -/', 'def enumTable : List EnumRow :=\n  ' + ' ++ '.join('enumRows%02d' % i for i in range(len(by))), '', 'end Verif.Gen']
with open(os.path.join(OUT, 'EnumTable.lean'), 'w') as f:
    f.write('\n'.join(out) + '\n')
print(sum(map(len, by.values())), sum(1 for p in by for r in by[p] if 'none' in r))
