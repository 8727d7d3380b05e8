"""Symbolic execution of the writer methods of ARXMLWriter (read as text) into trees of written elements.

A written element collects its content in program order.  Content is one of
  attrs(obj)  attr(name, expr)  text(expr)  prim(tag, kind, expr)  elem(node)  call(sig, expr)  error(...)
possibly below control blocks each(list) / some(expr) / nonempty(list) / case(expr, class chain).
An expression is a chain of attribute accesses from the object argument of the method or from the loop variable.
"""
import ast
import os
import sys
sys.path.insert(0, os.path.dirname(__file__))
from armodel_ast import load_classes, find_method, classify, mro, strip_doc, strip_imports
from codec_read import SPECIAL

WRITER = '/repo/src/armodel/writer/arxml_writer.py'
AWRITER = '/repo/src/armodel/writer/abstract_arxml_writer.py'
classes, _ = load_classes()

PRIM = {
    'setChildElementOptionalLiteral': 'literal', 'setChildElementOptionalIdentifier': 'literal',
    'setChildElementOptionalRevisionLabelString': 'literal', 'setChildElementOptionalDataTime': 'literal',
    'setChildElementOptionalFloatValue': 'literal', 'setChildElementOptionalTimeValue': 'literal',
    'setChildElementOptionalBooleanValue': 'literal',
    'setChildElementOptionalNumericalValue': 'numerical', 'setChildElementOptionalIntegerValue': 'numerical',
    'setChildElementOptionalPositiveInteger': 'numerical', 'setChildLimitElement': 'limit',
    'setChildElementOptionalRefType': 'ref',
}


class Unsup(Exception):
    pass


class Ob:
    """an object: the argument, a loop item, or the value of an attribute (chain of attributes below one of these)"""
    n = 0

    def __init__(self, root, chain=(), cls=None, many=False, view=None, sort=False):
        self.root, self.chain, self.cls, self.many, self.view, self.sort = root, chain, cls, many, view, sort

    def key(self):
        return (self.root, self.chain, self.many)

    def __repr__(self):
        return 'Ob(%s%s:%s%s)' % (self.root, ''.join('.' + c for c in self.chain), self.cls, '*' if self.many else '')


class El:
    n = 0

    def __init__(self, tag, depth):
        self.tag, self.depth, self.items = tag, depth, []
        El.n += 1
        self.id = El.n

    def __repr__(self):
        return 'El(%s)' % (self.tag,)


class V:
    def __init__(self, kind, *data):
        self.kind, self.data = kind, data

    def __repr__(self):
        return '%s%r' % (self.kind, self.data)


NONE = V('none')


class Frame:
    """a control block: kind each | some | none | nonempty | case | else"""
    def __init__(self, kind, ob, *data):
        self.kind, self.ob, self.data = kind, ob, data

    def __repr__(self):
        return '%s(%s%s)' % (self.kind, self.ob, ''.join(', %s' % (d,) for d in self.data))


class Writer:
    def __init__(self):
        self.methods, self.files, self.maps = {}, {}, {}
        for p in (AWRITER, WRITER):
            for c in ast.parse(open(p).read()).body:
                if isinstance(c, ast.ClassDef):
                    for m in c.body:
                        if isinstance(m, ast.FunctionDef):
                            self.methods[m.name] = m
                            self.files[m.name] = os.path.relpath(p, '/repo')
                elif isinstance(c, ast.Assign) and isinstance(c.value, ast.Dict):
                    def lit(x):
                        return x.id if isinstance(x, ast.Name) else ast.literal_eval(x)
                    self.maps[c.targets[0].id] = {lit(k): lit(v) for k, v in zip(c.value.keys, c.value.values)}
        self.summ, self.inprog, self.errors = {}, set(), []
        self.cur, self.frames = None, []
        self.assigned = None

    def err(self, node, msg):
        self.errors.append((self.cur, getattr(node, 'lineno', 0), msg))

    # ------------------------------------------------------------------ model classes
    def model(self, cls, name):
        if cls not in classes:
            return None, None
        k, m = find_method(classes, cls, name)
        if m is None:
            return None, None
        c = classify(m)
        if c is None:
            c = SPECIAL.get((k, name))
        return c, m

    def elem_cls(self, a):
        """class named by a return annotation"""
        if a is None:
            return None
        if isinstance(a, ast.Name):
            return a.id if a.id in classes else None
        if isinstance(a, ast.Constant) and isinstance(a.value, str):
            try:
                return self.elem_cls(ast.parse(a.value, mode='eval').body)
            except SyntaxError:
                return None
        if isinstance(a, ast.Subscript) and isinstance(a.value, ast.Name) and a.value.id in ('List', 'Optional', 'Sequence', 'Iterable'):
            return self.elem_cls(a.slice)
        return None

    def getter(self, o, name, node):
        c, m = self.model(o.cls, name)
        if m is None and o.cls is None or c is None:
            # class unknown or too general: every class that has the method must agree
            cands = set()
            anns = set()
            wide = o.cls in classes and not any(o.cls in mro(classes, k) and find_method(classes, k, name)[1] is not None for k in classes)
            for k in classes:
                if o.cls in classes and o.cls not in mro(classes, k) and not wide:
                    continue
                c2, m2 = self.model(k, name)
                if m2 is not None:
                    cands.add(c2)
                    anns.add(self.elem_cls(m2.returns))
            if len(cands) == 1 and None not in cands:
                c = cands.pop()
                ann = anns.pop() if len(anns) == 1 else None
                m = True
                if o.cls in classes:
                    self.err(node, 'NOTE %s of %s' % (name, o.cls))
            else:
                raise Unsup('getter %s of %r: %r' % (name, o, cands))
        else:
            ann = self.elem_cls(m.returns)
        if c[0] == 'get':
            return Ob(o.root, o.chain + (c[1],), ann)
        if c[0] == 'view':
            return Ob(o.root, o.chain + (c[1],), ann, False, tuple(c[2]) if c[2] else None, c[3])
        raise Unsup('getter %s is %r' % (name, c))

    # ------------------------------------------------------------------ summaries
    def summary(self, name, argkinds):
        sig = (name, argkinds)
        if sig in self.summ or sig in self.inprog:
            return self.summ.get(sig)
        self.inprog.add(sig)
        m = self.methods[name]
        env = {}
        root = El('.', 0)
        for a, k in zip(m.args.args[1:], argkinds):
            if k == 'E':
                env[a.arg] = root
            elif k[0] == 'O':
                env[a.arg] = Ob('o', (), k[1])
            elif k[0] == 'L':
                env[a.arg] = Ob('o', (), k[1], many=True)
            elif k[0] == 'c':
                env[a.arg] = V('const', k[1])
            else:
                env[a.arg] = NONE
        for a, d in zip(m.args.args[::-1], m.args.defaults[::-1]):
            if a.arg not in env:
                env[a.arg] = V('const', d.value) if d.value is not None else NONE
        save = self.cur, self.frames, self.assigned
        self.cur, self.frames, self.assigned = name, [], None
        rets = []
        self.block(strip_doc(m.body), env, rets)
        self.cur, self.frames, self.assigned = save
        self.inprog.discard(sig)
        self.summ[sig] = dict(root=root, rets=rets)
        return self.summ[sig]

    def add(self, el, item):
        lst = el.items
        for fr in self.frames[el.depth:]:
            if lst and lst[-1][0] == 'block' and lst[-1][1] is fr:
                lst = lst[-1][2]
            else:
                b = ('block', fr, [])
                lst.append(b)
                lst = b[2]
        lst.append(item)

    def within(self, fr, body, env, rets):
        self.frames = self.frames + [fr]
        r = self.block(body, env, rets)
        self.frames = self.frames[:-1]
        return r

    # ------------------------------------------------------------------ statements
    def block(self, stmts, env, rets):
        frames = self.frames
        try:
            for s in stmts:
                try:
                    if self.stmt(s, env, rets):
                        return True
                except Unsup as e:
                    self.err(s, '%s  || %s' % (e, ast.unparse(s)[:110].replace('\n', ' ; ')))
            return False
        finally:
            self.frames = frames

    def stmt(self, s, env, rets):
        if isinstance(s, (ast.Pass, ast.Import, ast.ImportFrom)):
            return False
        if isinstance(s, ast.Expr):
            if isinstance(s.value, ast.Constant) or ast.unparse(s.value).startswith('self.logger'):
                return False
            self.ev(s.value, env)
            return False
        if isinstance(s, (ast.Assign, ast.AnnAssign)):
            t = s.targets[0] if isinstance(s, ast.Assign) else s.target
            if isinstance(t, ast.Name):
                if self.assigned is not None:
                    used = {n.id for n in ast.walk(s.value) if isinstance(n, ast.Name)}
                    if t.id in used and t.id not in self.assigned:
                        # `x = ET.SubElement(x, ...)`: every element is added to the one before
                        if not ast.unparse(s.value).startswith('ET.SubElement(%s, ' % t.id):
                            raise Exception('loop-carried %s' % t.id)
                        assert self.frames[-1].kind == 'each'
                        self.frames[-1].ob.sort = 'nested'
                    self.assigned.add(t.id)
                env[t.id] = self.ev(s.value, env)
                return False
            if isinstance(t, ast.Attribute) and t.attr == 'text':
                el = self.ev(t.value, env)
                if isinstance(el, El):
                    self.text(el, s.value, env, s)
                    return False
            if isinstance(t, ast.Subscript) and isinstance(t.value, ast.Attribute) and t.value.attr == 'attrib':
                el = self.ev(t.value.value, env)
                k = self.ev(t.slice, env)
                self.attr(el, k, self.ev(s.value, env), s)
                return False
            raise Unsup('assign')
        if isinstance(s, ast.Return):
            rets.append(NONE if s.value is None else self.ev(s.value, env))
            return True
        if isinstance(s, ast.For):
            v = self.ev(s.iter, env)
            if isinstance(v, V) and v.kind == 'tuples' and isinstance(s.target, ast.Tuple):
                for x in v.data[0]:
                    for t, y in zip(s.target.elts, x):
                        env[t.id] = y
                    self.block(s.body, env, rets)
                return False
            if not isinstance(v, Ob) or not isinstance(s.target, ast.Name):
                raise Unsup('for over %r' % (v,))
            El.n += 1
            var = '%s#%d' % (s.target.id, El.n)
            fr = Frame('each', v, var)
            e2 = dict(env)
            e2[s.target.id] = Ob(var, (), v.cls)
            save = self.assigned
            self.assigned = {s.target.id}
            self.within(fr, s.body, e2, rets)
            self.assigned = save
            return False
        if isinstance(s, ast.If):
            return self.if_(s, env, rets)
        if isinstance(s, ast.Raise):
            return True
        raise Unsup('stmt')

    def text(self, el, value, env, node):
        if isinstance(value, ast.IfExp) and ast.unparse(value.orelse) in ('None', "''"):
            value = value.body
        self.add(el, ('text', self.ev(value, env), node.lineno))

    def attr(self, el, k, v, node):
        if not isinstance(el, El) or not (isinstance(k, V) and k.kind == 'const'):
            raise Unsup('attribute')
        # names are resolved: the namespace of `xml:space` is written as a prefix
        name = k.data[0].replace('{http://www.w3.org/XML/1998/namespace}', 'xml:')
        self.add(el, ('attr', name, v, node.lineno))

    def cond(self, t, env):
        """True | False | ('frames', positive frames, negative frames)"""
        u = ast.unparse(t)
        if isinstance(t, ast.BoolOp) and isinstance(t.op, ast.And):
            pos = []
            for x in t.values:
                r = self.cond(x, env)
                if r is False:
                    return False
                if r is not True:
                    pos += r[1]
            if not pos:
                return True
            return ('frames', pos, [Frame('not-and', None, u)])
        if isinstance(t, ast.BoolOp) and isinstance(t.op, ast.Or):
            obs = []
            for x in t.values:
                r = self.cond(x, env)
                if r is True:
                    return True
                if r is False:
                    continue
                obs.append(r[1][0])
            if all(f.kind in ('some', 'nonempty', 'any') for f in obs):
                return ('frames', [Frame('any', None, tuple(f.ob for f in obs))], [Frame('none-of', None, u)])
            if all(f.kind == 'case' for f in obs) and len({f.ob.key() for f in obs}) == 1:
                cs = sum((f.data[0] for f in obs), ())
                return ('frames', [Frame('case', obs[0].ob, cs)], [Frame('notcase', obs[0].ob, cs)])
            raise Unsup('or')
        if isinstance(t, ast.Call) and isinstance(t.func, ast.Name) and t.func.id == 'isinstance':
            o = self.ev(t.args[0], env)
            cs = tuple(x.id for x in t.args[1].elts) if isinstance(t.args[1], ast.Tuple) else (t.args[1].id,)
            if not isinstance(o, Ob):
                raise Unsup('isinstance %r' % (o,))
            return ('frames', [Frame('case', o, cs)], [Frame('notcase', o, cs)])
        if isinstance(t, ast.Compare) and len(t.ops) == 1:
            op, r = t.ops[0], t.comparators[0]
            if isinstance(r, ast.Constant) and r.value is None:
                v = self.ev(t.left, env)
                neg = isinstance(op, (ast.Is, ast.Eq))
                if isinstance(v, V) and v.kind == 'none':
                    return neg
                if isinstance(v, V) and v.kind in ('const', 'mapped', 'clstag'):
                    return not neg
                if isinstance(v, El):
                    return not neg
                if isinstance(v, V) and v.kind == 'value':
                    v = v.data[0]
                if isinstance(v, Ob):
                    a, b = [Frame('some', v)], [Frame('none', v)]
                    return ('frames', b, a) if neg else ('frames', a, b)
                raise Unsup('None test of %r' % (v,))
            if u.startswith('len(') and isinstance(t.left, ast.Call) and isinstance(r, ast.Constant) and r.value == 0:
                v = self.ev(t.left.args[0], env)
                if isinstance(v, Ob):
                    if isinstance(op, ast.Gt):
                        return ('frames', [Frame('nonempty', v)], [Frame('empty', v)])
                    if isinstance(op, ast.Eq):
                        return ('frames', [Frame('empty', v)], [Frame('nonempty', v)])
            if isinstance(op, ast.Eq) and isinstance(r, ast.Constant):
                v = self.ev(t.left, env)
                if isinstance(v, V) and v.kind == 'const':
                    return v.data[0] == r.value
        if isinstance(t, ast.UnaryOp) and isinstance(t.op, ast.Not):
            r = self.cond(t.operand, env)
            if isinstance(r, bool):
                return not r
            return ('frames', r[2], r[1])
        if u.startswith('len(') and isinstance(t, ast.Call):
            v = self.ev(t.args[0], env)
            if isinstance(v, Ob):
                return ('frames', [Frame('nonempty', v)], [Frame('empty', v)])
        if u.startswith('hasattr(') and t.args[1].value == 'getText':
            return True
        if u == 'pkg.getTotalElement() > 0':
            o = Ob(env['pkg'].root, ('elements',), None)
            return ('frames', [Frame('nonempty', o)], [Frame('empty', o)])
        if isinstance(t, (ast.Name, ast.Attribute, ast.Call)):
            v = self.ev(t, env)
            if isinstance(v, Ob):
                return ('frames', [Frame('truthy', v)], [Frame('falsy', v)])
            if isinstance(v, V) and v.kind == 'const':
                return bool(v.data[0])
        raise Unsup('cond')

    def if_(self, s, env, rets):
        r = self.cond(s.test, env)
        if r is True:
            return self.block(s.body, env, rets)
        if r is False:
            return self.block(s.orelse, env, rets)
        _, pos, neg = r
        pos = [f for f in pos]
        frames = self.frames
        e2 = dict(env)
        for f in pos:
            if f.kind == 'case' and len(f.data[0]) == 1:
                for k, v in env.items():
                    if isinstance(v, Ob) and v.key() == f.ob.key():
                        e2[k] = Ob(v.root, v.chain, f.data[0][0], v.many, v.view, v.sort)
        self.frames = frames + pos
        ret = self.block(s.body, e2, rets)
        self.frames = frames
        e3 = dict(env)
        ret2 = False
        if s.orelse:
            self.frames = frames + neg
            ret2 = self.block(s.orelse, e3, rets)
            self.frames = frames
        live = ([] if ret else [e2]) + ([] if ret2 else [e3])
        for k in set().union(*live) if live else ():
            vals = [e[k] for e in live if k in e]
            if all(v is vals[0] for v in vals):
                env[k] = vals[0]
            elif any(isinstance(v, El) for v in vals):
                if all(isinstance(v, El) for v in vals) and len(vals) == 2:
                    env[k] = V('elems', [(pos, vals[0]), (neg, vals[1])])
                else:
                    x = [v for v in vals if isinstance(v, El)]
                    env[k] = x[0] if len(x) == 1 else V('opaque')
            else:
                x = [v for v in vals if not (isinstance(v, V) and v.kind == 'none')]
                ks = {v.key() for v in x if isinstance(v, Ob)}
                env[k] = env[k] if k in env and len(ks) == 1 and all(isinstance(v, Ob) for v in x) else (x[0] if len(x) == 1 else V('choice', x))
        if ret and ret2:
            return True
        if ret:
            self.frames = frames + neg
        elif ret2:
            self.frames = frames + pos
        return False

    # ------------------------------------------------------------------ expressions
    def ev(self, e, env):
        if isinstance(e, ast.Constant):
            return NONE if e.value is None else V('const', e.value)
        if isinstance(e, ast.Name):
            if e.id in env:
                return env[e.id]
            if e.id in self.maps:
                return V('map', e.id)
            raise Unsup('name ' + e.id)
        if isinstance(e, ast.Attribute):
            v = self.ev(e.value, env)
            if isinstance(v, Ob):
                return Ob(v.root, v.chain + (e.attr,), None)
            raise Unsup('attribute %s of %r' % (e.attr, v))
        if isinstance(e, ast.Call):
            return self.call(e, env)
        if isinstance(e, ast.List) and all(isinstance(x, ast.Tuple) for x in e.elts) or isinstance(e, ast.Tuple) and all(isinstance(x, ast.Tuple) for x in e.elts):
            return V('tuples', [[self.ev(y, env) for y in x.elts] for x in e.elts])
        if isinstance(e, (ast.JoinedStr, ast.BinOp)):
            return V('opaque')
        if isinstance(e, ast.IfExp):
            r = self.cond(e.test, env)
            if r is True:
                return self.ev(e.body, env)
            if r not in (True, False) and isinstance(e.orelse, ast.Constant) and r[1][0].kind == 'some':
                return self.ev(e.body, env)
        raise Unsup('expr ' + ast.unparse(e)[:60])

    def call(self, e, env):
        f = e.func
        u = ast.unparse(f)
        if u == 'ET.SubElement':
            p = self.ev(e.args[0], env)
            t = self.ev(e.args[1], env)
            if not isinstance(p, El):
                raise Unsup('SubElement of %r' % (p,))
            if not (isinstance(t, V) and t.kind in ('const', 'clstag')):
                raise Unsup('tag %r' % (t,))
            el = El(t.data[0] if t.kind == 'const' else t, len(self.frames))
            el.line = e.lineno
            self.add(p, ('elem', el, e.lineno))
            return el
        if u in ('str', 'type', 'len'):
            v = self.ev(e.args[0], env)
            return V('fun', u, v)
        if isinstance(f, ast.Attribute) and f.attr == 'set' and len(e.args) == 2:
            el = self.ev(f.value, env)
            if isinstance(el, El):
                self.attr(el, self.ev(e.args[0], env), self.ev(e.args[1], env), e)
                return NONE
        if isinstance(f, ast.Attribute) and isinstance(f.value, ast.Name) and f.value.id == 'self':
            return self.selfcall(f.attr, e, env)
        if isinstance(f, ast.Attribute):
            v = self.ev(f.value, env)
            if isinstance(v, V) and v.kind == 'map' and f.attr == 'get':
                x = self.ev(e.args[0], env)
                if isinstance(x, V) and x.kind == 'fun' and x.data[0] == 'type':
                    return V('clstag', v.data[0], x.data[1])
                return V('mapped', v.data[0], x)
            if isinstance(v, Ob):
                if f.attr in ('getValue', 'getText') and (v.cls is None or self.is_prim(v.cls)):
                    return V('value', v, f.attr)
                if e.args:
                    raise Unsup('model call %s' % f.attr)
                return self.getter(v, f.attr, e)
        raise Unsup('call ' + u)

    def is_prim(self, cls):
        if cls not in classes:
            return False
        m = mro(classes, cls)
        return 'ARType' in m or cls in ('RefType',)

    def selfcall(self, name, e, env):
        a = e.args
        if name == 'writeARObjectAttributes':
            el, o = self.ev(a[0], env), self.ev(a[1], env)
            self.add(el, ('attrs', o, e.lineno))
            return NONE
        if name in ('notImplemented', '_raiseError', 'raiseError'):
            els = [v for v in env.values() if isinstance(v, El)]
            self.add(max(els, key=lambda x: (x.depth, x.id)), ('error', name, e.lineno))
            return NONE
        if name in PRIM:
            el, t, v = [self.ev(x, env) for x in a]
            if not isinstance(t, V) or t.kind != 'const':
                raise Unsup('tag %r' % (t,))
            if isinstance(v, V) and v.kind == 'none':
                return el
            self.add(el, ('prim', t.data[0], PRIM[name], v, e.lineno))
            return el
        if name not in self.methods:
            self.add(self.ev(a[0], env), ('error', 'attributeError', e.lineno))
            return NONE
        vals = [self.ev(x, env) for x in a]
        for i, v in enumerate(vals):
            if isinstance(v, V) and v.kind == 'elems':
                for fr, el in v.data[0]:
                    frames = self.frames
                    self.frames = frames + fr
                    self.selfcall(name, e, dict(env, **{a[i].id: el}))
                    self.frames = frames
                return NONE
        if e.keywords:
            raise Unsup('keywords')
        kinds, el, ob = [], None, None
        for v, p in zip(vals, self.methods[name].args.args[1:]):
            if isinstance(v, El):
                if el is not None:
                    raise Unsup('two elements')
                el = v
                kinds.append('E')
            elif isinstance(v, Ob) and name == 'writeDependencyOnArtifacts' and p.arg == 'impl':
                kinds.append('N')      # not used, arxml_writer.py:4525-4532
            elif isinstance(v, Ob):
                if ob is not None:
                    raise Unsup('two objects')
                ob = v
                ann = p.annotation
                many = isinstance(ann, ast.Subscript) and getattr(ann.value, 'id', '') == 'List'
                c = self.elem_cls(ann)
                if v.cls in classes and c in classes and c not in mro(classes, v.cls) and v.cls not in mro(classes, c):
                    self.err(e, 'NOTE %s passed to %s(%s)' % (v.cls, name, c))
                    c = v.cls
                elif c is None:
                    c = v.cls
                kinds.append(('L' if many else 'O', c))
            elif isinstance(v, V) and v.kind == 'const':
                kinds.append(('c', v.data[0]))
            elif isinstance(v, V) and v.kind == 'none':
                kinds.append('N')
            else:
                raise Unsup('argument %r' % (v,))
        if el is None:
            raise Unsup('no element argument')
        sig = (name, tuple(kinds))
        sm = self.summary(*sig)
        self.add(el, ('call', sig, ob, e.lineno))
        if sm is not None:
            r = [x for x in sm['rets'] if isinstance(x, El)]
            if r and r[0] is not sm['root']:
                return V('elresult', sig)
        return el


if __name__ == '__main__':
    W = Writer()
    W.summary('writeARPackage', ('E', ('O', 'ARPackage')))
    done = {s[0] for s in W.summ}
    print(len(W.summ), 'summaries')
    print('unreached:', [m for m in W.methods if W.files[m].endswith('/arxml_writer.py') and m not in done])
    print(len(set(W.errors)))
    for c, l, m in sorted(set(W.errors), key=lambda x: x[1]):
        print(l, c, m)
