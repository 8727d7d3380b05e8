"""Read /repo as text and classify the methods of the model classes.

Nothing of the repository is imported or executed: only ``ast.parse``.
"""
import ast
import os

REPO = '/repo'
MODELS = os.path.join(REPO, 'src/armodel/models')


def strip_doc(body):
    if body and isinstance(body[0], ast.Expr) and isinstance(body[0].value, ast.Constant):
        return body[1:]
    return body


def strip_imports(body):
    return [s for s in body if not isinstance(s, (ast.ImportFrom, ast.Import))]


class Cls:
    def __init__(self, node, path):
        self.name = node.name
        self.path = os.path.relpath(path, REPO)
        self.line = node.lineno
        self.bases = [b.id for b in node.bases if isinstance(b, ast.Name)]
        self.methods = {}
        self.attrs = {}
        for m in node.body:
            if isinstance(m, ast.FunctionDef):
                if m.name == '__init__':
                    for s in ast.walk(m):
                        tgt = None
                        if isinstance(s, ast.Assign) and len(s.targets) == 1:
                            tgt, val = s.targets[0], s.value
                        elif isinstance(s, ast.AnnAssign):
                            tgt, val = s.target, s.value
                        if tgt is not None and isinstance(tgt, ast.Attribute) and isinstance(tgt.value, ast.Name) and tgt.value.id == 'self':
                            self.attrs[tgt.attr] = ast.unparse(val) if val is not None else None
                deco = [ast.unparse(d) for d in m.decorator_list]
                if any(d.endswith('.setter') for d in deco):
                    self.methods[m.name + '.setter'] = m
                else:
                    self.methods[m.name] = m


def load_classes():
    res = {}
    dup = []
    for d, _, fs in sorted(os.walk(MODELS)):
        for f in sorted(fs):
            if f.endswith('.py'):
                p = os.path.join(d, f)
                for c in ast.parse(open(p).read()).body:
                    if isinstance(c, ast.ClassDef):
                        k = Cls(c, p)
                        if k.name in res:
                            dup.append((k.name, k.path, res[k.name].path))
                            continue
                        res[k.name] = k
    return res, dup


def mro(classes, name, memo={}):
    if name in memo:
        return memo[name]
    c = classes[name]
    seqs = [list(mro(classes, b)) for b in c.bases if b in classes] + [[b for b in c.bases if b in classes]]
    out = [name]
    seqs = [s for s in seqs if s]
    while seqs:
        for s in seqs:
            h = s[0]
            if not any(h in t[1:] for t in seqs):
                break
        else:
            raise Exception('mro ' + name)
        out.append(h)
        seqs = [[x for x in s if x != h] for s in seqs]
        seqs = [s for s in seqs if s]
    memo[name] = out
    return out


def find_method(classes, cname, m):
    for k in mro(classes, cname):
        if m in classes[k].methods:
            return k, classes[k].methods[m]
    return None, None


def is_self_attr(n, name=None):
    return isinstance(n, ast.Attribute) and isinstance(n.value, ast.Name) and n.value.id == 'self' and (name is None or n.attr == name)


def is_none_test(t, v):
    return (isinstance(t, ast.Compare) and isinstance(t.left, ast.Name) and t.left.id == v and len(t.ops) == 1
            and isinstance(t.ops[0], ast.IsNot) and isinstance(t.comparators[0], ast.Constant) and t.comparators[0].value is None)


def args(m):
    return [a.arg for a in m.args.args][1:]


def is_return_self(s):
    return isinstance(s, ast.Return) and isinstance(s.value, ast.Name) and s.value.id == 'self'


def sort_key_is_shortname(k):
    s = ast.unparse(k)
    return s.endswith('.short_name') or s.endswith('.getShortName()')


def parse_view(e):
    """list(sorted(filter(lambda a: isinstance(a, C), self.X), key=...)) and variants"""
    srt = False
    while True:
        if isinstance(e, ast.Call) and isinstance(e.func, ast.Name) and e.func.id == 'list' and len(e.args) == 1:
            e = e.args[0]
        elif isinstance(e, ast.Call) and isinstance(e.func, ast.Name) and e.func.id == 'sorted':
            if len(e.keywords) == 1 and sort_key_is_shortname(e.keywords[0].value):
                srt = True
            else:
                return None
            e = e.args[0]
        else:
            break
    flt = None
    if isinstance(e, ast.Call) and isinstance(e.func, ast.Name) and e.func.id == 'filter':
        lam, e2 = e.args
        if isinstance(lam, ast.Lambda) and isinstance(lam.body, ast.Call) and getattr(lam.body.func, 'id', '') == 'isinstance':
            t = lam.body.args[1]
            flt = [x.id for x in t.elts] if isinstance(t, ast.Tuple) else [t.id]
            e = e2
        else:
            return None
    if isinstance(e, ast.Call) and isinstance(e.func, ast.Attribute) and e.func.attr == 'values' and is_self_attr(e.func.value):
        return ('view', e.func.value.attr, flt, srt)
    if is_self_attr(e):
        return ('view', e.attr, flt, srt)
    return None


def classify(m):
    """Return a tuple describing the method, or None."""
    body = strip_imports(strip_doc(m.body))
    a = args(m)
    # getters
    if len(body) == 1 and isinstance(body[0], ast.Return) and not a:
        v = parse_view(body[0].value) if body[0].value is not None else None
        if v:
            if v[2] is None and not v[3]:
                return ('get', v[1])
            return v
    b = body[:-1] if body and is_return_self(body[-1]) else body
    # setter / adder
    if len(a) == 1 and len(b) == 1:
        s = b[0]
        ign = False
        dedup = False
        if isinstance(s, ast.If) and not s.orelse and len(s.body) == 1:
            if is_none_test(s.test, a[0]):
                ign = True
                s = s.body[0]
            elif isinstance(s.test, ast.BoolOp) and isinstance(s.test.op, ast.And) and is_none_test(s.test.values[0], a[0]) and \
                    isinstance(s.test.values[1], ast.Compare) and isinstance(s.test.values[1].ops[0], ast.NotIn):
                ign = True
                dedup = True
                s = s.body[0]
            elif isinstance(s.test, ast.Compare) and isinstance(s.test.ops[0], ast.NotIn) and is_self_attr(s.test.comparators[0]) and m.name.startswith('add'):
                dedup = True
                s = s.body[0]
        if isinstance(s, ast.Assign) and len(s.targets) == 1 and is_self_attr(s.targets[0]) and isinstance(s.value, ast.Name) and s.value.id == a[0]:
            return ('set', s.targets[0].attr, ign)
        if isinstance(s, ast.Expr) and isinstance(s.value, ast.Call) and isinstance(s.value.func, ast.Attribute) and s.value.func.attr == 'append' \
                and is_self_attr(s.value.func.value) and isinstance(s.value.args[0], ast.Name) and s.value.args[0].id == a[0]:
            return ('add', s.value.func.value.attr, ign, dedup)
    c = classify_create(m, body, a)
    return c


def call_self(n, meth):
    return isinstance(n, ast.Call) and is_self_attr(n.func, meth)


def classify_create(m, body, a):
    """('create', cls, guard, add, store, ret)
    guard: typed | untyped | never | fieldNone | listName | none
    store: None | ('list', attr) | ('field', attr)
    ret: typed | untyped | new | field"""
    if not a or not body:
        return None
    nm = a[0]
    guard = None
    cls = None
    inner = None
    s = body[0]
    rest = body[1:]
    if isinstance(s, ast.If) and not s.orelse:
        t = s.test
        if isinstance(t, ast.UnaryOp) and isinstance(t.op, ast.Not) and call_self(t.operand, 'IsElementExists'):
            guard = 'typed' if len(t.operand.args) == 2 else 'untyped'
            gcls = t.operand.args[1].id if guard == 'typed' else None
            inner = s.body
        elif isinstance(t, ast.Compare) and len(t.ops) == 1 and isinstance(t.ops[0], ast.NotIn) and isinstance(t.left, ast.Name) and t.left.id == nm and is_self_attr(t.comparators[0]):
            guard = ('notin', t.comparators[0].attr)
            inner = s.body
            gcls = None
        elif isinstance(t, ast.Compare) and isinstance(t.ops[0], ast.Is) and is_self_attr(t.left) and isinstance(t.comparators[0], ast.Constant) and t.comparators[0].value is None:
            guard = ('fieldNone', t.left.attr)
            inner = s.body
            gcls = None
    elif isinstance(s, ast.For) and is_self_attr(s.iter) and len(s.body) == 1 and isinstance(s.body[0], ast.If) and isinstance(s.body[0].body[0], ast.Return):
        guard = ('listName', s.iter.attr)
        inner = rest[:-1]
        rest = rest[-1:]
        gcls = None
    elif isinstance(s, ast.Assign):
        guard = 'none'
        inner = body[:-1]
        rest = body[-1:]
        gcls = None
    if guard is None:
        return None
    add = False
    store = None
    var = None
    for x in inner:
        if isinstance(x, ast.Assign) and isinstance(x.targets[0], ast.Name) and isinstance(x.value, ast.Call) and isinstance(x.value.func, ast.Name):
            var = x.targets[0].id
            cls = x.value.func.id
            if not (len(x.value.args) == 2 and ast.unparse(x.value.args[0]) == 'self' and ast.unparse(x.value.args[1]) == nm):
                return None
        elif isinstance(x, ast.Expr) and call_self(x.value, 'addElement'):
            add = True
        elif isinstance(x, ast.Expr) and isinstance(x.value, ast.Call) and isinstance(x.value.func, ast.Attribute) and x.value.func.attr == 'append' and is_self_attr(x.value.func.value):
            store = ('list', x.value.func.value.attr)
        elif isinstance(x, ast.Assign) and is_self_attr(x.targets[0]):
            store = ('field', x.targets[0].attr)
            if isinstance(x.value, ast.Call):
                cls = x.value.func.id
        else:
            return None
    if gcls is not None and gcls != cls:
        return None
    if len(rest) != 1 or not isinstance(rest[0], ast.Return):
        return None
    r = rest[0].value
    if call_self(r, 'getElement'):
        ret = 'typed' if len(r.args) == 2 else 'untyped'
        if ret == 'typed' and r.args[1].id != cls:
            return None
    elif isinstance(r, ast.Name) and r.id == var:
        ret = 'new'
    elif is_self_attr(r) and store == ('field', r.attr):
        ret = 'field'
    else:
        return None
    return ('create', cls, guard, add, store, ret)


if __name__ == '__main__':
    import collections
    classes, dup = load_classes()
    print(len(classes), dup)
    cnt = collections.Counter()
    for c in classes.values():
        for n, m in c.methods.items():
            if n.startswith('__'):
                continue
            k = classify(m)
            if k is None:
                print('UNCLASSIFIED', c.name, n, c.path.split('AUTOSARTemplates')[-1], m.lineno)
            elif k[0] == 'create':
                g = k[2] if isinstance(k[2], str) else k[2][0] + ('E' if k[2][1] == 'elements' else '')
                cnt[('create', g, k[3], k[4] and k[4][0], k[5])] += 1
            else:
                cnt[k[0]] += 1
    for k, v in cnt.most_common():
        print(v, k)
