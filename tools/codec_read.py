"""Symbolic execution of the reader methods of ARXMLParser (read as text) into slot lists.

An element is a tuple of steps from the element parameter of a method.  A step is (tag, cut, loop): take the children
with that tag, keep only the first one if cut.  `*` is any tag; a step ('=', tag, None) says that the element itself
has that tag; ('?', steps, None) keeps the element only if the steps select something; ('|', (steps, steps), None)
is the first of several selections that is not empty.
"""
import ast
import os
import sys
sys.path.insert(0, os.path.dirname(__file__))
from armodel_ast import load_classes, find_method, classify, mro, strip_doc, strip_imports

PARSER = '/repo/src/armodel/parser/arxml_parser.py'
APARSER = '/repo/src/armodel/parser/abstract_arxml_parser.py'
classes, _ = load_classes()

PRIM = {
    'getChildElementOptionalLiteral': 'literal', 'getChildElementOptionalVerbatimString': 'verbatim',
    'getChildElementOptionalIdentifier': 'identifier', 'getChildElementOptionalRevisionLabelString': 'revision',
    'getChildElementOptionalDataTime': 'literal', 'getChildElementOptionalFloatValue': 'float',
    'getChildElementOptionalTimeValue': 'time', 'getChildElementOptionalBooleanValue': 'boolean',
    'getChildElementOptionalNumericalValue': 'numerical', 'getChildElementOptionalIntegerValue': 'integer',
    'getChildElementOptionalPositiveInteger': 'positive', 'getChildLimitElement': 'limit',
    'getChildElementOptionalRefType': 'ref',
}
PRIMLIST = {'getChildElementLiteralValueList': 'literals', 'getChildElementFloatValueList': 'floats',
            'getChildElementNumericalValueList': 'numericals', 'getChildElementRefTypeList': 'refs'}
MAND = {'getChildElementLiteral': 'mandLiteral', 'getChildElementRefType': 'mandRef'}


#: reader methods whose object argument is only the parent of the new object
PARENT = {'readChapter', 'readChapterModel', 'readDocumentationContext', 'readChapterContent', 'readTopicContentOrMsrQuery', 'readMsrQueryP1',
          'readTopicContent', 'getBswServiceDependencyIdent', 'readTopic1', 'readMsrQueryTopic1', 'readMsrQueryChapter'}

#: model methods outside the patterns of armodel_ast.classify, read by hand
SPECIAL = {
    ('Identifiable', 'setCategory'): ('set', 'category', False),                 # Identifiable.py:560-575
    ('ARPackage', 'setCategory'): ('set', 'category', False),                    # ARPackage.py:644-659
    ('CompositeNetworkRepresentation', 'setNetworkRepresentation'): ('set', 'networkRepresentation', True),   # Communication.py:218-233
    ('AbstractProvidedPortPrototype', 'addProvidedComSpec'): ('add', 'providedComSpecs', False, False),   # Components/__init__.py:331-333
    ('AbstractRequiredPortPrototype', 'addRequiredComSpec'): ('add', 'requiredComSpecs', False, False),   # Components/__init__.py:378-380
    ('ModeSwitchInterface', 'createModeGroup'): ('create', 'ModeDeclarationGroupPrototype', 'untyped', True, ('field', 'modeGroup'), 'typed'),  # PortInterface/__init__.py:760-778
    ('HwElement', 'createHwPinGroup'): ('create', 'HwPinGroup', ('listName', 'hwPinGroups'), False, ('list', 'hwPinGroups'), 'new'),  # EcuResourceTemplate/__init__.py:592-605
    ('EcucConditionSpecification', 'createEcucQuery'): ('create', 'EcucQuery', ('listName', 'ecucQueries'), False, ('list', 'ecucQueries'), 'new'),  # ECUCParameterDefTemplate.py:63-74
    ('EcucValidationCondition', 'createEcucQuery'): ('create', 'EcucQuery', ('listName', 'ecucQueries'), False, ('list', 'ecucQueries'), 'new'),     # :131-142
    ('EcucDerivationSpecification', 'createEcucQuery'): ('create', 'EcucQuery', ('listName', 'ecucQueries'), False, ('list', 'ecucQueries'), 'new'),  # :818-829
    ('ARPackage', 'createARPackage'): ('create', 'ARPackage', ('notin', 'arPackages'), False, ('list', 'arPackages'), 'new'),   # ARPackage.py:716-730
    ('AUTOSAR', 'createARPackage'): ('create', 'ARPackage', ('notin', 'arPackages'), False, ('list', 'arPackages'), 'new'),     # AutosarTopLevelStructure/__init__.py:185-189
    ('Code', 'getArtifactDescriptors'): ('get', 'artifactDescriptors'),          # CommonStructure/Implementation.py:189-205, without category
    ('FlexrayCommunicationController', 'createFlexrayFifo'): ('anon', 'FlexrayFifoConfiguration', 'flexrayFifos'),   # FlexrayTopology.py:303-307
    ('FlexrayFifoConfiguration', 'createFlexrayFifoRange'): ('anon', 'FlexrayFifoRange', 'fifoRange'),               # FlexrayTopology.py:1311-1315
}


class Unsup(Exception):
    pass


class El:
    def __init__(self, steps):
        self.steps = steps

    def __repr__(self):
        return 'El' + repr(self.steps)


class Ob:
    n = 0

    def __init__(self, cls, home=None, named=False, param=False, origin=None):
        self.cls, self.home, self.named, self.param, self.origin = cls, home, named, param, origin
        self.slots = []
        self.line = None
        self.cctx = []
        Ob.n += 1
        self.id = Ob.n

    def settle(self):
        """the element an object is read from: the innermost element around its creation that all its slots come from"""
        if self.home is None:
            els = [sl['ob'].settle() if sl['t'] == 'obj' else sl['el'] for sl in self.slots]
            for c in self.cctx[::-1]:
                if all(same(e[:len(c)], c) for e in els):
                    self.home = c
                    break
            else:
                self.home = ()
        return self.home

    def __repr__(self):
        return 'Ob(%s,%s)' % (self.cls, self.home)


def same(a, b):
    """equal elements up to a tag refined later"""
    return len(a) == len(b) and all(x == y or (x[1:] == y[1:] and '*' in (x[0], y[0])) for x, y in zip(a, b))


class V:
    """other values: kind + data"""
    def __init__(self, kind, *data):
        self.kind, self.data = kind, data

    def __repr__(self):
        return '%s%r' % (self.kind, self.data)


NONE = V('none')
_loop = [0]


def shift(el, steps):
    """steps relative to an element el (tuple) -> absolute"""
    steps = tuple(steps)
    while steps and steps[0][0] == '=':
        t = steps[0][1]
        if el:
            last = el[-1]
            if last[0] == '*' and last[1]:
                el = el + (('=', t, None),)
            elif last[0] == '*':
                el = el[:-1] + ((t,) + last[1:],)
            elif last[0] == t or (last[0] == '=' and last[1] == t):
                pass
            else:
                raise Unsup('refine %s to %s' % (last, t))
        else:
            el = (('=', t, None),)
        steps = steps[1:]
    return el + steps


def path_steps(key, first, loop=None):
    out = []
    parts = [p for p in key.split('/') if p != '.']
    for i, p in enumerate(parts):
        last = i == len(parts) - 1
        out.append((p, first and last, loop if last else None))
    return tuple(out)


def refine(el, tag):
    return shift(el, (('=', tag, None),))


def subst(v, old, new):
    if isinstance(v, El):
        if v.steps[:len(old)] == old:
            return El(new + v.steps[len(old):])
        return v
    if isinstance(v, V):
        return V(v.kind, *[subst(d, old, new) if isinstance(d, (El, V)) else d for d in v.data])
    return v


class Reader:
    def __init__(self):
        self.methods = {}
        self.files = {}
        for p in (APARSER, PARSER):
            t = ast.parse(open(p).read())
            for c in t.body:
                if isinstance(c, ast.ClassDef):
                    for m in c.body:
                        if isinstance(m, ast.FunctionDef):
                            self.methods[m.name] = m
                            self.files[m.name] = os.path.relpath(p, '/repo')
                elif isinstance(c, ast.Assign) and isinstance(c.value, ast.Dict):
                    setattr(self, c.targets[0].id, {ast.literal_eval(k): (v.id if isinstance(v, ast.Name) else ast.literal_eval(v)) for k, v in zip(c.value.keys, c.value.values)})
        self.summ = {}      # signature -> dict(value=..., obj=Ob or None)
        self.inprog = set()
        self.errors = []
        self.cur = None
        self.ctx = []
        self.retguard = []
        self.elctx = []
        self.needs = False
        self.chain = {}

    # ------------------------------------------------------------------ errors
    def err(self, node, msg):
        self.errors.append((self.cur, getattr(node, 'lineno', 0), msg))

    # ------------------------------------------------------------------ model methods
    def model(self, cls, name):
        if cls not in classes:
            return None
        k, m = find_method(classes, cls, name)
        if m is None:
            return None
        b = strip_imports(strip_doc(m.body))
        c = classify(m)
        if c is None and k == 'RunnableEntity' and name.startswith('create') and '_createVariableAccess' in ast.unparse(b[0]):
            c = ('create', 'VariableAccess', 'untyped', True, ('list', b[0].value.args[1].attr), 'typed')
        if c is None:
            c = SPECIAL.get((k, name))
        return c

    # ------------------------------------------------------------------ summaries
    def annot_cls(self, a):
        if a is None:
            return None
        if isinstance(a, ast.Name):
            return a.id
        if isinstance(a, ast.Constant) and isinstance(a.value, str):
            return a.value
        return None

    def summary(self, name, argkinds):
        """argkinds: tuple of 'E' | 'O' | ('c', const) | 'T' (tag of E) | 'N' (other)"""
        sig = (name, argkinds)
        if sig in self.summ or sig in self.inprog:
            return self.summ.get(sig)
        self.inprog.add(sig)
        m = self.methods[name]
        env = {}
        obj = None
        for a, k in zip(m.args.args[1:], argkinds):
            if k == 'E':
                env[a.arg] = El(())
            elif k == 'O' or (isinstance(k, tuple) and k[0] == 'O'):
                cls = self.annot_cls(a.annotation) if k == 'O' else k[1]
                obj = Ob(cls, (), param=True, origin=name)
                env[a.arg] = obj
            elif k == 'T':
                env[a.arg] = V('tag', El(()))
            elif isinstance(k, tuple) and k[0] == 'b':
                env[a.arg] = V('bound', obj, k[1])
            elif isinstance(k, tuple) and k[0] == 'c':
                env[a.arg] = V('const', k[1])
            else:
                env[a.arg] = V('opaque')
        for a, d in zip(m.args.args[::-1], m.args.defaults[::-1]):
            if a.arg not in env:
                env[a.arg] = V('const', d.value) if d.value is not None else NONE
        save = self.cur, self.ctx, self.elctx, self.needs, self.chain, self.retguard
        self.cur, self.ctx, self.elctx, self.needs, self.chain, self.retguard = name, [], [], False, {}, []
        rets = []
        if name == 'readDelegationSwConnectorInnerPortIRef':
            # arxml_parser.py:4883-4900, by hand: R-PORT-... if present, otherwise P-PORT-..., otherwise an error
            R, P = ('R-PORT-IN-COMPOSITION-INSTANCE-REF', True, None), ('P-PORT-IN-COMPOSITION-INSTANCE-REF', True, None)
            pre = (('INNER-PORT-IREF', True, None), ('|', ((R,), (P,)), None))
            for tg, cls, meth in ((R[0], 'RPortInCompositionInstanceRef', 'readRPortInCompositionInstanceRef'), (P[0], 'PPortInCompositionInstanceRef', 'readPPortInCompositionInstanceRef')):
                x = Ob(cls, pre + (('=', tg, None),), origin=name)
                x.line = m.lineno
                self.summary(meth, ('E', 'O'))
                x.slots.append(dict(t='call', el=x.home, sig=(meth, ('E', 'O')), line=m.lineno, meth=name))
                obj.slots.append(dict(t='obj', ob=x, field='innerPortIRref', mode='set', line=m.lineno, meth=name, dedup=False))
            obj.slots.append(dict(t='require', el=pre, within=(pre[0],), err='raiseError', line=4900, meth=name))
        else:
            self.block(strip_doc(m.body), env, rets)
        needs, guards = self.needs, self.retguard
        self.cur, self.ctx, self.elctx, self.needs, self.chain, self.retguard = save
        val = self.merge([r for r in rets])
        obs = [x for x in (val.data[0] if isinstance(val, V) and val.kind in ('choice', 'list') else [val]) if isinstance(x, Ob)]
        rest = []
        for g in guards:
            own = [o for o in obs if len(o.settle()) < len(g['el']) and same(g['el'][:len(o.home)], o.home)]
            for o in own:
                o.slots.append(g)
            if not own:
                rest.append(g)
        guards = rest
        self.inprog.discard(sig)
        self.summ[sig] = dict(value=val, obj=obj, needs=needs, guards=guards)
        return self.summ[sig]

    def merge(self, vals):
        out = []
        for v in vals:
            if v is None or (isinstance(v, V) and v.kind == 'none'):
                continue
            if isinstance(v, V) and v.kind == 'choice':
                for x in v.data[0]:
                    if all(x is not y for y in out):
                        out.append(x)
            elif all(v is not y for y in out):
                out.append(v)
        if not out:
            return NONE
        if len(out) == 1:
            return out[0]
        return V('choice', out)

    # ------------------------------------------------------------------ statements
    def block(self, stmts, env, rets):
        """returns True if the block certainly returned"""
        ctx, elctx = self.ctx, self.elctx
        try:
            for s in stmts:
                try:
                    if self.stmt(s, env, rets):
                        return True
                except Unsup as e:
                    self.err(s, '%s  || %s' % (e, ast.unparse(s)[:110].replace('\n', ' ; ')))
            return False
        finally:
            self.ctx, self.elctx = ctx, elctx

    def is_log(self, e):
        return isinstance(e, ast.Call) and ast.unparse(e.func).startswith('self.logger')

    def stmt(self, s, env, rets):
        if isinstance(s, (ast.Pass, ast.Import, ast.ImportFrom)):
            return False
        if isinstance(s, ast.Expr):
            if isinstance(s.value, ast.Constant) or self.is_log(s.value):
                return False
            v = self.ev(s.value, env)
            if isinstance(v, V) and v.kind == 'lit':       # x.setValue(...) as a statement
                r = s.value.func.value
                if isinstance(r, ast.Name):
                    env[r.id] = v
                elif isinstance(r, ast.Attribute):
                    o = self.ev(r.value, env)
                    o.slots = [sl for sl in o.slots if sl.get('field') != r.attr]
                    self.assign(o, r.attr, 'set', v, s)
                else:
                    raise Unsup('setValue')
            return False
        if isinstance(s, ast.AnnAssign) and isinstance(s.target, ast.Name):
            env[s.target.id] = self.ev(s.value, env)
            return False
        if isinstance(s, ast.Assign) and len(s.targets) == 1:
            t = s.targets[0]
            if isinstance(t, ast.Name):
                v = self.ev(s.value, env)
                env[t.id] = v
                return False
            if isinstance(t, ast.Attribute) and isinstance(t.value, ast.Name):
                o = env.get(t.value.id)
                if isinstance(o, Ob):
                    self.assign(o, t.attr, 'set', self.ev(s.value, env), s)
                    return False
            if isinstance(t, ast.Attribute):
                o = self.ev(t.value, env)
                if isinstance(o, Ob):
                    self.assign(o, t.attr, 'set', self.ev(s.value, env), s)
                    return False
            raise Unsup('assign')
        if isinstance(s, ast.Return):
            rets.append(NONE if s.value is None else self.ev(s.value, env))
            return True
        if isinstance(s, ast.For):
            return self.for_(s, env, rets)
        if isinstance(s, ast.If):
            return self.if_(s, env, rets)
        if isinstance(s, ast.Try):
            return self.block(s.body, env, rets)
        if isinstance(s, ast.Raise):
            return True
        if isinstance(s, ast.Continue):
            return True
        raise Unsup('stmt')

    def for_(self, s, env, rets):
        # for camel, token in MAP.items(): handled in if_
        it = s.iter
        if isinstance(it, ast.Call) and isinstance(it.func, ast.Attribute) and it.func.attr == 'items' and isinstance(it.func.value, ast.Name):
            # for camel, token in MAP.items(): if token == element.attrib[K]: x = camel; break
            b = s.body[0]
            if len(s.body) == 1 and isinstance(b, ast.If) and isinstance(b.test, ast.Compare) and isinstance(b.test.ops[0], ast.Eq) \
                    and ast.unparse(b.test.left) == s.target.elts[1].id and isinstance(b.body[0], ast.Assign) \
                    and ast.unparse(b.body[0].value) == s.target.elts[0].id and isinstance(b.body[1], ast.Break):
                env[b.body[0].targets[0].id] = V('mapped', it.func.value.id, self.ev(b.test.comparators[0], env))
                return False
            raise Unsup('dict loop')
        v = self.ev(it, env)
        if isinstance(v, V) and v.kind in ('tuple', 'list') and isinstance(s.target, ast.Tuple):
            for x in v.data[0]:
                if not (isinstance(x, V) and x.kind == 'tuple'):
                    raise Unsup('tuple loop')
                for t, y in zip(s.target.elts, x.data[0]):
                    env[t.id] = y
                self.block(s.body, dict(env), rets)
            return False
        if not isinstance(s.target, ast.Name):
            raise Unsup('for target')
        if isinstance(v, V) and v.kind == 'all':
            el = v.data[0]
            env[s.target.id] = el
        elif isinstance(v, El):
            _loop[0] += 1
            env[s.target.id] = El(v.steps + (('*', False, _loop[0]),))
        elif isinstance(v, V) and v.kind == 'primlist':
            env[s.target.id] = V('primitem', *v.data)
        elif isinstance(v, V) and v.kind == 'list':
            vals = v.data[0]
            if not vals:
                return False
            env[s.target.id] = vals[0] if len(vals) == 1 else V('choice', list(vals))
        elif isinstance(v, V) and v.kind == 'lazy':
            env[s.target.id] = v
        else:
            raise Unsup('for over %r' % (v,))
        e2 = dict(env)
        save = self.elctx
        x = env[s.target.id]
        if isinstance(x, El):
            self.elctx = self.elctx + [x.steps]
        self.block(s.body, e2, rets)
        self.elctx = save
        for k in env:                      # x = None; for ...: x = X(); return x
            if isinstance(env[k], V) and env[k].kind == 'none' and (isinstance(e2[k], Ob) or isinstance(e2[k], V) and e2[k].kind == 'choice'):
                env[k] = e2[k]
        return False

    # conditions: returns list of (kind, ...) facts or raises
    def if_(self, s, env, rets):
        t = s.test
        u = ast.unparse(t)
        if isinstance(t, ast.Compare) and u.startswith('len(') and u.endswith(') == 0') and isinstance(t.left.args[0], ast.Name) and len(s.body) == 1 \
                and isinstance(s.body[0], ast.Assign) and ast.unparse(s.body[0].targets[0]) == t.left.args[0].id:
            k = t.left.args[0].id
            env[k] = self.alt(env[k], self.ev(s.body[0].value, env))
            return False
        if self.cur == 'readDelegationSwConnector' and 'getInnerPortIRref() is None and' in u:
            # arxml_parser.py:4907: the outer port is not read yet, so a missing INNER-PORT-IREF content is an error
            o = env['connector']
            self.rec(o, dict(t='require', el=(('INNER-PORT-IREF', True, None), ('|', ((('R-PORT-IN-COMPOSITION-INSTANCE-REF', True, None),), (('P-PORT-IN-COMPOSITION-INSTANCE-REF', True, None),)), None)), err='raiseError', line=s.lineno, meth=self.cur))
            return False
        # constant conditions
        r = self.cond(t, env, s)
        if r is True:
            return self.block(s.body, env, rets)
        if r is False:
            return self.block(s.orelse, env, rets)
        if r[0] == 'guard' and len(r[1]) == 1 and r[1][0][0] == 'some' and isinstance(r[1][0][1], V) and r[1][0][1].kind == 'clsget':
            d, el = r[1][0][1].data
            name = s.test.left.id
            for tg, cls in d.items():
                new = refine(el.steps, tg)
                e2 = {k: subst(v, el.steps, new) for k, v in env.items()}
                e2[name] = V('cls', cls)
                save = self.elctx
                self.elctx = [new + x[len(el.steps):] if x[:len(el.steps)] == el.steps else x for x in self.elctx]
                self.block(s.body, e2, rets)
                self.elctx = save
            self.chain.setdefault(el.steps, []).extend(d)
            self.block(s.orelse, dict(env), rets)
            return False
        if r[0] == 'guard' and len(r[1]) == 1 and r[1][0][0] == 'some' and isinstance(r[1][0][1], V) and r[1][0][1].kind == 'mapped':
            # unknown values are an error (strict mode) or dropped: part of the kind
            return self.block(s.body, env, rets)
        if r[0] == 'guard':       # protects against absence; the statements below must derive from the same source
            e2 = dict(env)
            save = self.ctx, self.elctx
            self.ctx = self.ctx + r[1]
            self.elctx = self.elctx + [c[1].steps for c in r[1] if c[0] == 'some' and isinstance(c[1], El)]
            self.block(s.body, e2, rets)
            self.ctx, self.elctx = save
            e3 = dict(env)
            if s.orelse:
                self.block(s.orelse, e3, rets)
            self.join(env, [e2, e3])
            return False
        if r[0] == 'isnone':
            # if x is None: return ...
            e2 = dict(env)
            ret = self.block(s.body, e2, rets)
            c = [('some', r[1])]
            els = [r[1].steps] if isinstance(r[1], El) else []
            if s.orelse:
                e3 = dict(env)
                save = self.ctx, self.elctx
                self.ctx, self.elctx = self.ctx + c, self.elctx + els
                self.block(s.orelse, e3, rets)
                self.ctx, self.elctx = save
                self.join(env, [e3] if ret else [e2, e3])
            elif ret:
                self.ctx, self.elctx = self.ctx + c, self.elctx + els
            else:
                alt = [k for k in env if e2.get(k) is not env[k]]
                if len(alt) == 1 and isinstance(env[alt[0]], V) and env[alt[0]] is r[1]:
                    env[alt[0]] = self.alt(env[alt[0]], e2[alt[0]])
                elif any(k != '' for k in alt):
                    raise Unsup('default')
            return False
        if r[0] == 'tag':
            el, tags = r[1], r[2]
            envs = []
            for tg in tags:
                new = refine(el.steps, tg)
                e2 = {k: subst(v, el.steps, new) for k, v in env.items()}
                save = self.elctx
                self.elctx = [new + x[len(el.steps):] if x[:len(el.steps)] == el.steps else x for x in self.elctx]
                self.block(s.body, e2, rets)
                self.elctx = save
                # un-refine elements
                envs.append({k: subst(v, new, el.steps) if isinstance(v, (El,)) or (isinstance(v, V) and v.kind in ('tag',)) else v for k, v in e2.items()})
            e3 = dict(env)
            self.chain.setdefault(el.steps, []).extend(tags)
            if s.orelse:
                self.block(s.orelse, e3, rets)
            self.join(env, envs + [e3])
            return False
        raise Unsup('if')

    def alt(self, a, b):
        """a if present, otherwise b"""
        if isinstance(a, V) and isinstance(b, V) and a.kind == b.kind and a.kind in ('prim', 'primlist') and a.data[0] == b.data[0]:
            x, y = a.data[1].steps, b.data[1].steps
            n = 0
            while n < len(x) and n < len(y) and x[n] == y[n]:
                n += 1
            while n and not (x[n - 1][1] or x[n - 1][2] is not None):
                n -= 1
            return V(a.kind, a.data[0], El(x[:n] + (('|', (x[n:], y[n:]), None),)))
        raise Unsup('alternative')

    def join(self, env, envs):
        keys = set()
        for e in envs:
            keys |= set(e)
        for k in keys:
            vals = [e[k] for e in envs if k in e]
            v0 = vals[0]
            if all(v is v0 for v in vals):
                env[k] = v0
            elif all(isinstance(v, V) and v.kind == 'tag' for v in vals):
                env[k] = vals[-1]
            else:
                obs = []
                for v in vals:
                    if isinstance(v, El):
                        obs = [v]
                        break
                    obs.append(v)
                if all(isinstance(v, (El,)) for v in vals):
                    env[k] = vals[-1]
                else:
                    try:
                        env[k] = self.merge(vals)
                    except Exception:
                        env[k] = V('opaque')

    def cond(self, t, env, s):
        if isinstance(t, ast.Call) and isinstance(t.func, ast.Name) and t.func.id == 'isinstance':
            o = self.ev(t.args[0], env)
            c = t.args[1].id
            if isinstance(o, Ob) and o.cls in classes and c in classes:
                if c in mro(classes, o.cls):
                    return True
                if o.cls in mro(classes, c):
                    if o.param:
                        self.needs = True
                    raise Unsup('isinstance dynamic %s %s' % (o.cls, c))
                return False
            raise Unsup('isinstance')
        if isinstance(t, ast.BoolOp) and isinstance(t.op, ast.And):
            rs = [self.cond(x, env, s) for x in t.values]
            rs = [r for r in rs if r is not True]
            if any(r is False for r in rs):
                return False
            if all(r[0] == 'guard' for r in rs):
                return ('guard', sum((r[1] for r in rs), []))
            if len(rs) == 1:
                return rs[0]
            if len(rs) == 2 and rs[0][0] == 'guard' and rs[1][0] == 'tag':
                return rs[1]
            raise Unsup('and')
        if isinstance(t, ast.BoolOp) and isinstance(t.op, ast.Or):
            rs = [self.cond(x, env, s) for x in t.values]
            if all(isinstance(r, tuple) and r[0] == 'tag' for r in rs) and len({r[1].steps for r in rs}) == 1:
                return ('tag', rs[0][1], sum((r[2] for r in rs), []))
            if all(r[0] in ('nonempty', 'guard') for r in rs):
                return ('guard', [('part',)])
            raise Unsup('or')
        if isinstance(t, ast.Compare) and len(t.ops) == 1:
            op, r = t.ops[0], t.comparators[0]
            l = t.left
            if isinstance(r, ast.Constant) and r.value is None:
                v = self.ev(l, env)
                neg = isinstance(op, (ast.Is, ast.Eq))
                if isinstance(v, V) and v.kind == 'none':
                    return neg
                if isinstance(v, V) and v.kind == 'const':
                    return not neg
                if neg:
                    return ('isnone', v)
                return ('guard', [('some', v)])
            if isinstance(op, ast.In) and isinstance(l, ast.Constant) and isinstance(r, ast.Attribute) and r.attr == 'attrib':
                return ('guard', [('attr', self.elem(r.value, env), l.value)])
            if isinstance(op, ast.In):
                v = self.ev(l, env)
                if isinstance(v, V) and v.kind == 'tag' and isinstance(r, (ast.Tuple, ast.List)):
                    return ('tag', v.data[0], [x.value for x in r.elts])
                raise Unsup('in')
            if isinstance(op, ast.Eq):
                v = self.ev(l, env)
                if isinstance(v, V) and v.kind == 'tag' and isinstance(r, ast.Constant):
                    return ('tag', v.data[0], [r.value])
                if isinstance(v, V) and v.kind == 'const' and isinstance(r, ast.Constant):
                    return v.data[0] == r.value
                raise Unsup('eq')
            if isinstance(op, ast.NotEq) and ast.unparse(t).endswith(".text.strip() != ''"):
                v = self.ev(l.func.value, env)
                return ('guard', [('nonblank', v)])
            if isinstance(op, ast.Gt) and ast.unparse(t).startswith('len('):
                return ('nonempty',)
        if isinstance(t, ast.Name):
            v = env.get(t.id)
            if isinstance(v, (El, Ob)):
                return ('guard', [('some', v)])
            if isinstance(v, V) and v.kind == 'const':
                return bool(v.data[0])
        if isinstance(t, ast.UnaryOp) and isinstance(t.op, ast.Not):
            r = self.cond(t.operand, env, s)
            if isinstance(r, bool):
                return not r
        raise Unsup('cond')

    # ------------------------------------------------------------------ effects on objects
    def rec(self, o, sl):
        """record a slot on an object, checking that the conditions around it follow from its source"""
        el = sl['ob'].settle() if sl['t'] == 'obj' and not sl.get('late') else sl.get('el')
        for c in ([] if sl.get('late') else self.ctx):
            ok = False
            if c[0] == 'some':
                v = c[1]
                if isinstance(v, El):
                    ok = same(el[:len(v.steps)], v.steps)
                elif isinstance(v, Ob):
                    ok = sl['t'] == 'obj'
                elif isinstance(v, V) and v.kind == 'text':
                    ok = sl['t'] == 'text' and el == v.data[0].steps
                elif isinstance(v, V) and v.kind == 'attr':
                    ok = sl['t'] == 'xattr' and el == v.data[0].steps
                elif isinstance(v, V) and v.kind == 'prim':
                    ok = sl['t'] in ('prim', 'plain') and el == v.data[1].steps
                elif isinstance(v, V) and v.kind in ('choice', 'lazy'):
                    ok = sl['t'] in ('obj', 'lazy')
            elif c[0] == 'attr':
                ok = sl['t'] == 'xattr' and el == c[1].steps and sl['attr'] == c[2]
            elif c[0] == 'nonblank':
                ok = sl['t'] == 'text' and el == c[1].data[0].steps
                sl['nonblank'] = True
            elif c[0] == 'part':
                ok = True
            if not ok and c[0] == 'some' and isinstance(c[1], El) and sl['t'] in ('attrs', 'call') and same(c[1].steps[:len(el)], el):
                sl['el'] = el + (('?', c[1].steps[len(el):], None),)
                ok = True
            if not ok:
                self.errors.append((self.cur, sl['line'], 'CONTEXT %r for %r' % (c, sl)))
        o.slots.append(sl)

    def assign(self, o, field, mode, v, node, **kw):
        sl = dict(mode=mode, field=field, line=node.lineno, meth=self.cur, **kw)
        self.attach(o, sl, v)

    def attach(self, o, sl, v):
        if isinstance(v, Ob) and v.home is None and not v.slots:
            sl['late'] = True
        if isinstance(v, V):
            k = v.kind
            if k == 'none':
                return
            if k == 'choice':
                for x in v.data[0]:
                    self.attach(o, dict(sl), x)
                return
            if k == 'prim':
                self.rec(o, dict(sl, t='prim', kind=v.data[0], el=v.data[1].steps))
                return
            if k == 'primitem':
                self.rec(o, dict(sl, t='prims', kind=v.data[0], el=v.data[1].steps))
                return
            if k == 'attr':
                self.rec(o, dict(sl, t='xattr', kind='raw', el=v.data[0].steps, attr=v.data[1]))
                return
            if k == 'text':
                self.rec(o, dict(sl, t='text', kind='raw', el=v.data[0].steps))
                return
            if k == 'lit':
                c, x = v.data
                if x.kind == 'mapped' and x.data[1].kind == 'attr':
                    self.rec(o, dict(sl, t='xattr', kind='mapped:' + x.data[0], el=x.data[1].data[0].steps, attr=x.data[1].data[1]))
                    return
                if x.kind == 'attr':
                    self.rec(o, dict(sl, t='xattr', kind=c, el=x.data[0].steps, attr=x.data[1]))
                    return
                if x.kind == 'text':
                    self.rec(o, dict(sl, t='text', kind=c, el=x.data[0].steps))
                    return
                if x.kind == 'textor':
                    self.rec(o, dict(sl, t='text', kind=c + '!', el=x.data[0].steps))
                    return
                if x.kind == 'primvalue':
                    self.rec(o, dict(sl, t='prim', kind='plain', el=x.data[1].steps))
                    return
            if k == 'lazy':
                self.rec(o, dict(sl, t='lazy', sig=v.data[0], el=v.data[1].steps))
                return
            if k == 'name':
                self.rec(o, dict(sl, t='rawname', el=v.data[0].steps))
                return
            raise Unsup('attach %r' % (v,))
        if isinstance(v, Ob):
            self.rec(o, dict(sl, t='obj', ob=v))
            return
        raise Unsup('attach %r' % (v,))

    # ------------------------------------------------------------------ expressions
    def ev(self, e, env):
        if isinstance(e, ast.Constant):
            return NONE if e.value is None else V('const', e.value)
        if isinstance(e, ast.Name):
            if e.id in env:
                return env[e.id]
            if e.id == 'AUTOSAR':
                return V('registry')
            if hasattr(self, e.id) and isinstance(getattr(self, e.id), dict):
                return V('dict', getattr(self, e.id))
            raise Unsup('name ' + e.id)
        if isinstance(e, ast.List):
            return V('list', [self.ev(x, env) for x in e.elts])
        if isinstance(e, ast.Subscript) and isinstance(e.value, ast.Attribute) and e.value.attr == 'attrib':
            k = self.ev(e.slice, env)
            if k.kind != 'const':
                raise Unsup('attrib key')
            return V('attr', self.elem(e.value.value, env), k.data[0])
        if isinstance(e, ast.Attribute):
            v = self.ev(e.value, env)
            if isinstance(v, El) and e.attr == 'text':
                return V('text', v)
            if isinstance(v, Ob):
                for sl in v.slots[::-1]:
                    if sl['t'] == 'obj' and sl['field'] == e.attr:
                        return sl['ob']
                if v.cls in classes and find_method(classes, v.cls, e.attr)[1] is not None:
                    return V('bound', v, e.attr)
                return V('objfield', v, e.attr)
            raise Unsup('attribute')
        if isinstance(e, ast.Call):
            return self.call(e, env)
        if isinstance(e, ast.IfExp):
            r = self.cond(e.test, env, e)
            if r == 'ignore':
                return self.merge([self.ev(e.body, env), self.ev(e.orelse, env)])
        if isinstance(e, ast.BinOp) and isinstance(e.op, ast.Mod) and isinstance(e.left, ast.Constant):
            try:
                r = self.ev(e.right, env)
            except Unsup:
                return V('opaque')
            if isinstance(r, V) and r.kind == 'const':
                return V('const', e.left.value % r.data[0])
            return V('opaque')
        if isinstance(e, ast.BinOp) and isinstance(e.op, ast.Add):
            l, r = self.ev(e.left, env), self.ev(e.right, env)
            if isinstance(l, V) and isinstance(r, V) and l.kind == r.kind == 'const':
                return V('const', l.data[0] + r.data[0])
        if isinstance(e, (ast.JoinedStr, ast.BinOp)):
            return V('opaque')
        if isinstance(e, ast.BoolOp) and isinstance(e.op, ast.Or) and isinstance(e.values[1], ast.Constant) and e.values[1].value == '':
            v = self.ev(e.values[0], env)
            if isinstance(v, V) and v.kind == 'text':
                return V('textor', v.data[0])
        if isinstance(e, ast.BoolOp) and isinstance(e.op, ast.Or) and len(e.values) == 2:
            return self.alt(self.ev(e.values[0], env), self.ev(e.values[1], env))
        if isinstance(e, ast.Tuple):
            return V('tuple', [self.ev(x, env) for x in e.elts])
        raise Unsup('expr ' + type(e).__name__)

    def elem(self, e, env):
        v = self.ev(e, env)
        if isinstance(v, El):
            return v
        raise Unsup('not an element: %r' % (v,))

    def const(self, e, env):
        v = self.ev(e, env)
        if isinstance(v, V) and v.kind == 'const':
            return v.data[0]
        raise Unsup('not a constant: %r' % (v,))

    def call(self, e, env):
        f = e.func
        if isinstance(f, ast.Name):
            if f.id == 'len' or f.id == 'str':
                return V('opaque')
            if f.id in env and isinstance(env[f.id], V) and env[f.id].kind == 'bound':
                return self.objcall(env[f.id].data[0], env[f.id].data[1], e, env)
            if f.id in env and isinstance(env[f.id], V) and env[f.id].kind == 'cls':
                o = Ob(env[f.id].data[0], None, origin=self.cur)
                o.line = e.lineno
                o.cctx = self.elctx
                return o
            return self.new(f.id, e, env)
        if not isinstance(f, ast.Attribute):
            raise Unsup('call')
        if isinstance(f.value, ast.Name) and f.value.id == 'self':
            return self.selfcall(f.attr, e, env)
        if isinstance(f.value, ast.Attribute) and f.value.attr == 'attrib' and f.attr == 'get':
            return V('attr', self.elem(f.value.value, env), self.const(e.args[0], env))
        # method on value
        recv = self.ev(f.value, env)
        if isinstance(recv, El) and f.attr == 'get':
            return V('attr', recv, self.const(e.args[0], env))
        if isinstance(recv, El) and f.attr in ('find', 'findall'):
            key = self.const(e.args[0], env).replace('xmlns:', '')
            if f.attr == 'find':
                return El(shift(recv.steps, path_steps(key, True)))
            _loop[0] += 1
            return V('all', El(shift(recv.steps, path_steps(key, False, _loop[0]))))
        if isinstance(recv, V) and recv.kind == 'dict' and f.attr == 'get':
            t = self.ev(e.args[0], env)
            if isinstance(t, V) and t.kind == 'tag':
                return V('clsget', recv.data[0], t.data[0])
        if isinstance(recv, V) and recv.kind == 'registry':
            return recv
        if isinstance(recv, V) and recv.kind == 'prim' and f.attr == 'getValue' and recv.data[0] == 'literal':
            return V('primvalue', *recv.data)
        if isinstance(recv, V) and recv.kind == 'list' and f.attr == 'append':
            recv.data[0].append(self.ev(e.args[0], env))
            return NONE
        if isinstance(recv, Ob):
            return self.objcall(recv, f.attr, e, env)
        raise Unsup('method %s on %r' % (f.attr, recv))

    def new(self, cls, e, env):
        if cls in env and isinstance(env[cls], V) and env[cls].kind == 'clsmap':
            raise Unsup('dynamic class')
        if cls not in classes:
            raise Unsup('class ' + cls)
        if len(e.args) == 0:
            o = Ob(cls, None, origin=self.cur)
            o.line = e.lineno
            o.cctx = self.elctx
            return o
        if len(e.args) == 2:
            n = self.ev(e.args[1], env)
            if isinstance(n, V) and n.kind == 'name':
                o = Ob(cls, n.data[0].steps, named=True, origin=self.cur)
                o.line = e.lineno
                return o
        raise Unsup('constructor')

    def objcall(self, o, name, e, env):
        c = self.model(o.cls, name)
        if o.cls and o.cls in classes and 'ARLiteral' in mro(classes, o.cls) and name == 'setValue' and o.home is None and not o.slots:
            v = self.ev(e.args[0], env)
            if isinstance(v, V) and v.kind in ('attr', 'text', 'textor', 'primvalue', 'mapped'):
                return V('lit', o.cls, v)
            if isinstance(v, V) and v.kind == 'prim' and v.data[0] == 'literal':
                return V('lit', o.cls, V('primvalue', *v.data))
        if name == 'getShortName':
            return V('opaque')
        if c is None:
            if o.param:
                self.needs = True
            raise Unsup('model method %s.%s' % (o.cls, name))
        if c[0] == 'set' or c[0] == 'add':
            v = self.ev(e.args[0], env)
            self.assign(o, c[1], c[0], v, e, dedup=(c[0] == 'add' and c[3]), over=(c[0] == 'set' and not c[2] and not self.ctx))
            return o
        if c[0] == 'anon':
            x = Ob(c[1], None, origin=self.cur)
            x.line = e.lineno
            x.cctx = self.elctx
            self.assign(o, c[2], 'add', x, e, late=True)
            return x
        if c[0] == 'create':
            n = self.ev(e.args[0], env)
            if not (isinstance(n, V) and n.kind == 'name'):
                raise Unsup('create name %r' % (n,))
            x = Ob(c[1], n.data[0].steps, named=True, origin=self.cur)
            x.line = e.lineno
            store = c[4]
            self.assign(o, store[1] if store else 'elements', 'create', x, e, store=(store[0] if store else 'elements'), guard=c[2] if isinstance(c[2], str) else c[2][0], cadd=c[3])
            return x
        if c[0] == 'get':
            p = self.part(o, c[1])
            if p is not None:
                return p
        if c[0] in ('get', 'view'):
            return V('objfield', o, name)
        raise Unsup('model method kind %r' % (c,))

    def part(self, o, attr):
        """an object created by the constructor of o and kept in an attribute"""
        for sl in o.slots:
            if sl['t'] == 'obj' and sl['field'] == attr and sl.get('part'):
                return sl['ob']
        for c in mro(classes, o.cls) if o.cls in classes else []:
            k, m = find_method(classes, c, '__init__')
            for n in ast.walk(m) if m is not None else []:
                t = n.target if isinstance(n, ast.AnnAssign) else n.targets[0] if isinstance(n, ast.Assign) else None
                if t is not None and ast.unparse(t) == 'self.' + attr and isinstance(n.value, ast.Call) and isinstance(n.value.func, ast.Name) and n.value.func.id in classes:
                    x = Ob(n.value.func.id, o.home if o.home is not None else (), origin=self.cur)
                    x.line = n.lineno
                    o.slots.append(dict(t='obj', ob=x, field=attr, mode='set', line=n.lineno, meth=self.cur, part=True, late=True))
                    return x
        return None

    def selfcall(self, name, e, env):
        a = e.args
        if name == 'find':
            return El(shift(self.elem(a[0], env).steps, path_steps(self.const(a[1], env), True)))
        if name == 'findall':
            _loop[0] += 1
            return V('all', El(shift(self.elem(a[0], env).steps, path_steps(self.const(a[1], env), False, _loop[0]))))
        if name == 'getTagName':
            v = self.ev(a[0], env) if not (isinstance(a[0], ast.Attribute) and a[0].attr == 'tag') else self.ev(a[0].value, env)
            return V('tag', v)
        if name == 'getPureTagName':
            v = self.ev(a[0].value if isinstance(a[0], ast.Attribute) and a[0].attr == 'tag' else a[0], env)
            return V('tag', v)
        if name == 'getShortName':
            return V('name', self.elem(a[0], env))
        if name in PRIM:
            el = self.elem(a[0], env)
            return V('prim', PRIM[name], El(shift(el.steps, path_steps(self.const(a[1], env), True))))
        if name in MAND:
            el = self.elem(a[1], env)
            return V('prim', MAND[name], El(shift(el.steps, path_steps(self.const(a[2], env), True))))
        if name in PRIMLIST:
            _loop[0] += 1
            el = self.elem(a[0], env)
            return V('primlist', PRIMLIST[name], El(shift(el.steps, path_steps(self.const(a[1], env), False, _loop[0]))))
        if name == 'readElementOptionalAttrib':
            return V('attr', self.elem(a[0], env), self.const(a[1], env))
        if name == 'readARObjectAttributes':
            el = self.elem(a[0], env)
            o = self.ev(a[1], env)
            if not isinstance(o, Ob):
                raise Unsup('attributes of %r' % (o,))
            self.rec(o, dict(t='attrs', el=el.steps, line=e.lineno, meth=self.cur))
            return NONE
        if name in ('notImplemented', 'raiseError'):
            tags = [v.data[0] for v in env.values() if isinstance(v, V) and v.kind == 'tag']
            tags += [El(x) for x in self.elctx if x and x[-1][0] == '*']
            if tags:
                el = max(tags, key=lambda x: len(x.steps))
                ks = self.chain.get(el.steps, [])
                self.guard(dict(t='guard', el=el.steps, tags=tuple(dict.fromkeys(ks)), err=name, line=e.lineno, meth=self.cur), env)
            else:
                raise Unsup('error without tag')
            return NONE
        if name not in self.methods:
            raise Unsup('undefined method ' + name)
        vals = [self.ev(x, env) for x in a]
        if e.keywords:
            raise Unsup('keywords')
        kinds = []
        el = ob = None
        params = [p.arg for p in self.methods[name].args.args][1:]
        for v in vals:
            if isinstance(v, El):
                if el is not None:
                    raise Unsup('two elements')
                el = v
                kinds.append('E')
            elif isinstance(v, Ob):
                if ob is not None:
                    raise Unsup('two objects')
                ob = v
                p = self.methods[name].args.args[1:][len(kinds)]
                ann = self.annot_cls(p.annotation)
                if ann in classes and ob.cls in classes and ann in mro(classes, ob.cls):
                    kinds.append('O')
                else:
                    kinds.append(('O', ob.cls))
            elif isinstance(v, V) and v.kind == 'none':
                kinds.append('N')
            elif isinstance(v, V) and v.kind == 'const':
                kinds.append(('c', v.data[0]))
            elif isinstance(v, V) and v.kind == 'tag':
                kinds.append('T')
            elif isinstance(v, V) and v.kind == 'bound' and v.data[0] is ob:
                kinds.append(('b', v.data[1]))
            elif isinstance(v, V) and v.kind == 'choice' and all(isinstance(x, Ob) for x in v.data[0]):
                raise Unsup('choice argument')
            else:
                kinds.append('N')
        if el is None:
            raise Unsup('no element argument')
        sig = (name, tuple(kinds))
        if ob is not None and name in PARENT:
            # the object is only the parent given to constructors
            ob = None
            sig = (name, tuple('N' if k == 'O' or k[0] == 'O' else k for k in kinds))
        sm = self.summary(*sig)
        if ob is not None and sm is not None and sm['needs']:
            sig = (name, tuple(('O', ob.cls) if k == 'O' else k for k in kinds))
            sm = self.summary(*sig)
            if sm is not None and sm['needs'] and ob.param:
                self.needs = True
        if ob is not None and sm is not None and not sm['obj'].slots and sm['value'] is not sm['obj'] and not (isinstance(sm['value'], V) and sm['value'].kind == 'none'):
            raise Unsup('PARENT ' + name)
        if ob is not None:
            if any(k[0] == 'O' for k in kinds if isinstance(k, tuple)):
                self.errors.append((self.cur, e.lineno, 'NOTE class %s passed to %s' % (ob.cls, name)))
            self.rec(ob, dict(t='call', el=el.steps, sig=sig, line=e.lineno, meth=self.cur))
            return ob
        if sm is None:
            return V('lazy', sig, el)
        for g in sm['guards']:
            self.guard(dict(t='guard', el=shift(el.steps, g['el']), tags=g['tags'], err=g['err'], line=g['line'], meth=g['meth']), env)
        return self.reloc(sm['value'], el.steps, sig)

    def guard(self, g, env):
        """an error for unknown tags: kept with the object being read, or passed on to the caller"""
        if self.cur == 'getValueSpecification':
            g['err'] = 'unbound'       # arxml_parser.py:5391-5393: without the error the result is an unbound variable
        for o in env.values():
            if isinstance(o, Ob) and o.param:
                o.slots.append(g)
                return
        self.retguard.append(g)

    def reloc(self, v, base, sig):
        if isinstance(v, Ob):
            x = Ob(v.cls, shift(base, v.settle()), v.named, False, origin=v.origin)
            x.slots = [dict(t='body', ob=v, el=x.home, sig=sig)]
            x.line = v.line
            return x
        if isinstance(v, El):
            return El(shift(base, v.steps))
        if isinstance(v, V):
            if v.kind in ('choice', 'list'):
                return V(v.kind, [self.reloc(x, base, sig) for x in v.data[0]])
            return V(v.kind, *[self.reloc(d, base, sig) if isinstance(d, (El, V)) else d for d in v.data])
        return v


if __name__ == '__main__':
    R = Reader()
    sm = R.summary('readARPackage', ('E', 'O'))
    done = {s[0] for s in R.summ}
    print(len(R.summ), 'summaries from readARPackage')
    allm = [m for m in R.methods if R.files[m].endswith('/arxml_parser.py')]
    print('unreached:', [m for m in allm if m not in done])
    import collections
    print(len(R.errors))
    for c, l, m in sorted(set(R.errors), key=lambda x: x[1]):
        print(l, c, m)
