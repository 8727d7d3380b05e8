"""Normal form of the writer trees of codec_write: per method a list of slots about its object argument.

  ('attr', name, kind, field, line)            attribute of the element, from a string field
  ('text', kind, field, line)                  text of the element
  ('prim', tag, kind, field, line)             one element per value of the field
  ('objs', field, view, sort, cases, other, line)   one element per object of the field; a case is (classes, not classes, tag, body)
  ('wrap', cond, tag, slots, line)             one element with the given content
  ('when', cond, slots, line)
  ('call', sig, line)                          slots of another method about the same object
  ('error', line)
A body is ('sig', sig, index) - the content of an element written by a method about its argument - or ('in', slots, line).
cond: () always | ('any', fields) | ('none', fields)
"""
import os
import sys
sys.path.insert(0, os.path.dirname(__file__))
from codec_write import Writer, Ob, El, V, Frame, Unsup, NONE, classes, mro


class Bad(Exception):
    pass


def exprs(it):
    """objects mentioned by an item"""
    k = it[0]
    if k == 'attrs':
        return [it[1]]
    if k == 'attr':
        return vex(it[2])
    if k == 'text':
        return vex(it[1])
    if k == 'prim':
        return vex(it[3])
    if k == 'elem':
        r = []
        if isinstance(it[1].tag, V):
            r += vex(it[1].tag.data[1])
        for x in it[1].items:
            r += exprs(x)
        return r
    if k == 'call':
        return [] if it[2] is None else [it[2]]
    if k == 'block':
        r = []
        f = it[1]
        if f.kind == 'any':
            r += list(f.data[0])
        elif f.ob is not None:
            r.append(f.ob)
        inner = []
        for x in it[2]:
            inner += exprs(x)
        if f.kind == 'each':
            inner = [e for e in inner if e.root != f.data[0]]
        return r + inner
    return []


def vex(v):
    if isinstance(v, Ob):
        return [v]
    if isinstance(v, V):
        r = []
        for d in v.data:
            if isinstance(d, (Ob, V)):
                r += vex(d)
        return r
    return []


def under(o, c):
    """relative chain of o below object c, or None"""
    if o.root == c[0] and o.chain[:len(c[1])] == c[1]:
        return o.chain[len(c[1]):]
    return None


def sub_ob(o, arg):
    if not isinstance(o, Ob) or o.root != 'o':
        return o
    return Ob(arg.root, arg.chain + o.chain, o.cls if o.chain else (arg.cls or o.cls), o.many if o.chain else arg.many, o.view if o.chain else arg.view, o.sort if o.chain or o.sort == 'nested' else arg.sort)


def sub_v(v, arg):
    if isinstance(v, Ob):
        return sub_ob(v, arg)
    if isinstance(v, V):
        return V(v.kind, *[sub_v(d, arg) if isinstance(d, (Ob, V)) else d for d in v.data])
    return v


def sub_item(it, arg):
    """the item with the argument of the method replaced"""
    k = it[0]
    if k == 'attrs':
        return ('attrs', sub_ob(it[1], arg), it[2])
    if k == 'attr':
        return ('attr', it[1], sub_v(it[2], arg), it[3])
    if k == 'text':
        return ('text', sub_v(it[1], arg), it[2])
    if k == 'prim':
        return ('prim', it[1], it[2], sub_v(it[3], arg), it[4])
    if k == 'elem':
        e = El(sub_v(it[1].tag, arg) if isinstance(it[1].tag, V) else it[1].tag, 0)
        e.line = getattr(it[1], 'line', 0)
        e.items = [sub_item(x, arg) for x in it[1].items]
        return ('elem', e, it[2])
    if k == 'call':
        return ('call', it[1], None if it[2] is None else sub_ob(it[2], arg), it[3])
    if k == 'block':
        f = it[1]
        if f.kind == 'any':
            g = Frame('any', None, tuple(sub_ob(x, arg) for x in f.data[0]))
        else:
            g = Frame(f.kind, sub_ob(f.ob, arg), *f.data)
        return ('block', g, [sub_item(x, arg) for x in it[2]])
    return it


#: containers written for a single object, around the element of the object
HOIST = {'BSW-MODULE-DOCUMENTATIONS', 'ROOT-SOFTWARE-COMPOSITIONS', 'I-PDU-TIMING-SPECIFICATIONS', 'FIRST-ELEMENTS', 'SECOND-ELEMENTS',
         'APPLICATION-COMPOSITE-DATA-TYPE-SUB-ELEMENT-REF', 'BULK-NV-BLOCK'}
PARTF = {'swCalprmAxisSet', 'topicContent', 'chapter', 'topic1', 'compuDenominator', 'compuNumerator', 'sdgContentsType', 'baseTypeDefinition',
         'swRecordLayoutGroupContentType', 'compuScaleContents', 'compuScaleContents.compuConst', 'compuScaleContents.compuConst.compuConstContentType'}
_VT = 'compuScaleContents.compuConst.compuConstContentType.vt'
#: class tests of parts, in terms of the fields that only this class has
PARTCLS = {('compuScaleContents', 'CompuScaleConstantContents'): _VT, ('compuScaleContents', 'CompuScaleRationalFormula'): 'compuScaleContents.compuRationalCoeffs',
           ('compuScaleContents.compuConst.compuConstContentType', 'CompuConstTextContent'): _VT}


class Norm:
    def __init__(self, W):
        self.W = W
        self.forms = {}
        self.errors = []
        self.cur = None

    def err(self, line, msg):
        self.errors.append((line, self.cur, msg))

    def field(self, o, subj):
        """field name of an expression below the subject; '' if it is the subject"""
        r = under(o, subj)
        if r is None:
            raise Bad('%r is not below %r' % (o, subj))
        return '.'.join(r)

    # ---------------------------------------------------------------- forms of methods
    def form(self, sig):
        if sig not in self.forms:
            self.forms[sig] = None
            save = self.cur
            self.cur = sig
            f = self.norm(self.W.summ[sig]['root'].items, ('o', ()), [])
            if sig[0] == 'writeModeSwitchPointModeGroupIRef':
                # the methods of the instance reference are called without a test for None (arxml_writer.py:3120-3122)
                w = f[0]
                b = [x[:3] + (x[3].split('.', 1)[1],) + x[4:] for x in w[3]]
                f = [('when', ('none', ('modeGroupIRef',)), [('error', 'attributeError', 3121)], 3121),
                     ('each', 'modeGroupIRef', None, False, [((), (), ('in', [w[:3] + (b, w[4])], w[4]))], 'skip', w[4])]
            self.forms[sig] = f
            self.cur = save
        return self.forms[sig]

    def is_list(self, sig):
        return any(k[0] == 'L' for k in sig[1]) or self.loops(self.W.summ[sig]['root'].items)

    def loops(self, items):
        for it in items:
            if it[0] == 'block':
                if it[1].kind in ('nonempty', 'each') and it[1].ob.root == 'o' and it[1].ob.chain == ():
                    return True
                if self.loops(it[2]):
                    return True
        return False

    # ---------------------------------------------------------------- items
    def norm(self, items, subj, frames):
        out = []
        items = list(items)
        while items:
            it = items.pop(0)
            try:
                if it[0] == 'block' and it[1].kind in ('case', 'notcase') and under(it[1].ob, subj) is not None:
                    fld = self.field(it[1].ob, subj)
                    g = [it]
                    while items and items[0][0] == 'block' and items[0][1].kind in ('case', 'notcase') and items[0][1].ob.key() == it[1].ob.key():
                        g.append(items.pop(0))
                    if fld not in PARTF and (fld != '' or any(self.elements(x[2]) for x in g)):
                        cs, other, line = self.chain(g, (it[1].ob.root, it[1].ob.chain))
                        out.append(('each', fld, it[1].ob.view, it[1].ob.sort, cs, other, line))
                        continue
                    items = g[1:] + items
                out += self.item(it, subj, frames)
            except Bad as e:
                self.err(it[-1] if isinstance(it[-1], int) else 0, 'BAD %s || %s' % (e, str(it)[:200]))
        return out

    def value(self, v, subj):
        """(kind, field) of a string expression"""
        if isinstance(v, Ob) and v.chain[-2:] == ('level', 'value'):
            return ('getValue', self.field(Ob(v.root, v.chain[:-1]), subj))
        if isinstance(v, Ob):
            return ('raw', self.field(v, subj))
        if isinstance(v, V) and v.kind == 'value' and isinstance(v.data[0], Ob):
            return (v.data[1], self.field(v.data[0], subj))
        if isinstance(v, V) and v.kind == 'mapped':
            k, f = self.value(v.data[1], subj)
            return ('mapped:' + v.data[0], f)
        if isinstance(v, V) and v.kind == 'fun' and v.data[0] == 'str':
            k, f = self.value(v.data[1], subj)
            return ('str', f)
        raise Bad('value %r' % (v,))

    def item(self, it, subj, frames):
        k = it[0]
        if k == 'attrs':
            f = self.field(it[1], subj)
            pre = f + '.' if f else ''
            return [('attr', 'T', 'raw', pre + 'timestamp', it[2]), ('attr', 'UUID', 'raw', pre + 'uuid', it[2])]
        if k == 'attr':
            kind, f = self.value(it[2], subj)
            return [('attr', it[1], kind, f, it[3])]
        if k == 'text':
            kind, f = self.value(it[1], subj)
            return [('text', kind, f, it[2])]
        if k == 'prim':
            kind, f = self.value(it[3], subj)
            if kind != 'raw':
                raise Bad('prim of %s' % kind)
            return [('prim', it[1], it[2], f, it[4])]
        if k == 'error':
            return [('error', it[1], it[2])]
        if k == 'call':
            return self.call(it, subj, frames)
        if k == 'elem':
            return self.elem(it, subj, frames)
        if k == 'block':
            return self.blk(it, subj, frames)
        raise Bad('item')

    def call(self, it, subj, frames):
        sig, ob, line = it[1], it[2], it[3]
        if ob is None or (under(ob, subj) == () and not ob.many):
            self.form(sig)
            return [('call', sig, line)]
        fld = self.field(ob, subj)
        if self.is_list(sig) or fld in PARTF:
            return self.norm([sub_item(x, ob) for x in self.W.summ[sig]['root'].items], subj, frames)
        self.form(sig)
        cs, other = self.expand(sig)
        return self.hoist(('each', fld, ob.view, ob.sort, cs, other, line))

    def hoist(self, s):
        """`s` writes at most one object: containers around the element of the object are separated from it"""
        if s[4] and len(s[4]) == 1 and s[4][0][:2] == ((), ()) and s[2] is None:
            b = s[4][0][2]
            sl = self.forms[b[1]] if b[0] == 'sig' else b[1]
            if sl is not None and len(sl) == 1 and sl[0][0] == 'wrap' and sl[0][1] == ():
                w = sl[0]
                f = s[1]
                inner = w[3]
                while len(inner) == 1 and inner[0][0] == 'call':
                    inner = self.forms[inner[0][1]]
                    if inner is None:
                        return [s]
                if len(inner) == 1 and (inner[0][0] == 'each' and inner[0][1] == '' or inner[0][0] == 'prim' and inner[0][3] == ''):
                    x = inner[0]
                    y = ('each', f) + x[2:] if x[0] == 'each' else x[:3] + (f,) + x[4:]
                    return [('wrap', ('any', (f,)), w[2], [y], w[4])]
                if len(inner) == 1 and inner[0][0] == 'wrap' and (w[2] in HOIST or self.selfish(inner)):
                    r = self.hoist(('each', f, None, False, [((), (), ('in', inner, w[4]))], 'skip', w[4]))
                    return [('wrap', ('any', (f,)), w[2], r, w[4])]
        return [s]

    def selfish(self, sl):
        return len(sl) == 1 and (sl[0][0] == 'wrap' and sl[0][1] == () and self.selfish(sl[0][3]) or sl[0][0] == 'prim' and sl[0][3] == ''
                                 or sl[0][0] == 'each' and sl[0][1] == '')

    def expand(self, sig):
        """cases of a method: its own class tests if that is all it does"""
        f = self.forms[sig]
        if f is not None and len(f) == 1 and f[0][0] == 'each' and f[0][1] == '':
            return f[0][4], f[0][5]
        return [((), (), ('sig', sig))], 'skip'

    def elem(self, it, subj, frames):
        el, line = it[1], it[2]
        es = exprs(it)
        if isinstance(el.tag, V):
            ob = el.tag.data[1]
            fld = self.field(ob, subj)
            b = self.norm(el.items, (ob.root, ob.chain), [])
            return [('each', fld, None, False, [((('=', c),), (), ('in', [('wrap', (), t, b, line)], line)) for c, t in self.W.maps[el.tag.data[0]].items()], 'notImplemented', line)]
        cand = None
        if not el.items and frames and frames[-1].kind == 'some':
            cand = frames[-1].ob
        for f in frames:
            if f.kind == 'some' and under(f.ob, subj) not in (None, ()) and es and all(under(e, (f.ob.root, f.ob.chain)) is not None for e in es):
                cand = f.ob
        if cand is not None and any(x[0] == 'block' and x[1].kind == 'each' and x[1].ob.key() == cand.key() for x in el.items):
            cand = None
        if cand is not None and '.'.join(under(cand, subj)) in PARTF:
            cand = None
        if cand is not None and el.items and all(x[0] == 'block' and x[1].kind in ('case', 'notcase') and x[1].ob.key() == cand.key() or x[0] == 'error'
                                    or x[0] == 'elem' and isinstance(x[1].tag, V) for x in el.items):
            return [('wrap', (), el.tag, self.norm(el.items, subj, []), line)]
        if cand is not None:
            fld = self.field(cand, subj)
            b = self.norm(el.items, (cand.root, cand.chain), [])
            p = self.primlike(b)
            if p:
                return [('prim', el.tag, p, fld, line)]
            return self.hoist(('each', fld, cand.view, cand.sort, [((), (), ('in', [('wrap', (), el.tag, b, line)], line))], 'skip', line))
        return [('wrap', (), el.tag, self.norm(el.items, subj, []), line)]

    def primlike(self, b):
        """the content of an element is just a string"""
        if b and all(x[0] in ('attr', 'text') and x[-2] in ('', 'timestamp', 'uuid') for x in b) and any(x[0] == 'text' and x[2] == '' for x in b):
            at = {x[1] for x in b if x[0] == 'attr'}
            t = [x for x in b if x[0] == 'text'][0]
            return 'plain:%s:%s' % (t[1], '+'.join(sorted(at)))
        return None

    def blk(self, it, subj, frames):
        f, sub = it[1], it[2]
        if f.kind in ('some', 'none', 'truthy', 'falsy', 'empty', 'nonempty') and under(f.ob, subj) == ():
            if f.kind in ('some', 'truthy', 'nonempty'):
                return self.norm(sub, subj, frames)
            if f.kind in ('none', 'empty'):
                return []
        if f.kind == 'each':
            fld = self.field(f.ob, subj)
            return self.each(f, fld, sub, subj)
        if f.kind in ('case', 'notcase') and under(f.ob, subj) is not None:
            fld = self.field(f.ob, subj)
            if fld in PARTF:
                return self.cond(('any' if f.kind == 'case' else 'none', tuple(PARTCLS[fld, c] for c in f.data[0])), self.norm(sub, subj, frames))
            if fld == '' and not self.elements(sub):
                c = ('cls', f.data[0]) if f.kind == 'case' else ('notcls', f.data[0])
                return [('when', c, self.norm(sub, subj, frames), self.line(sub))]
            raise Bad('class chain')
        if f.kind == 'some' or f.kind == 'truthy':
            r = self.norm(sub, subj, frames + [Frame('some', f.ob)])
            fld = self.field(f.ob, subj)
            if fld in PARTF:
                return r
            return self.cond(('any', (fld,)), r)
        if f.kind == 'nonempty':
            r = self.norm(sub, subj, frames)
            fl = self.field(f.ob, subj)
            if f.ob.view:
                fl = (fl, f.ob.view)
            return self.cond(('any', (fl,)), r)
        if f.kind == 'any':
            r = self.norm(sub, subj, frames + ([Frame('some', f.data[0][0])] if len(f.data[0]) == 1 and len(sub) == 1 and sub[0][0] == 'elem' and not sub[0][1].items else []))
            fs = []
            for o in f.data[0]:
                x = self.field(o, subj)
                fs.append((x, o.view) if o.view else x)
            return self.cond(('any', tuple(fs)), r)
        if f.kind in ('none', 'empty'):
            r = self.norm(sub, subj, frames)
            fl = self.field(f.ob, subj)
            return self.cond(('none', ((fl, f.ob.view) if f.ob.view else fl,)), r)
        raise Bad('block %r' % (f,))

    def elements(self, items):
        """do the items write elements about the object itself (a class chain) rather than content"""
        for it in items:
            if it[0] == 'block' and it[1].kind in ('case', 'notcase'):
                if self.elements(it[2]):
                    return True
            elif it[0] == 'call' and it[2] is not None and it[2].chain == ():
                return True
            elif it[0] in ('elem', 'prim'):
                return True
        return False

    def line(self, items):
        for it in items:
            if isinstance(it[-1], int):
                return it[-1]
            if it[0] == 'block':
                return self.line(it[2])
        return 0

    def cond(self, c, slots):
        """conditions that follow from the slot are dropped, others are kept on wrapped elements"""
        out = []
        for s in slots:
            if c[0] == 'any' and s[0] in ('attr', 'text', 'prim', 'oprim', 'each'):
                fld = s[3] if s[0] in ('attr', 'prim') else s[4] if s[0] == 'oprim' else s[2] if s[0] == 'text' else s[1]
                if fld in c[1] or any(fld.startswith(x + '.') for x in c[1] if isinstance(x, str)) or any(x == (fld, s[2]) for x in c[1] if isinstance(x, tuple)):
                    out.append(s)
                    continue
            if s[0] == 'wrap' and s[1] == ():
                out.append(('wrap', c) + s[2:])
                continue
            if s[0] == 'wrap' and s[1][0] == 'any' and c[0] == 'any' and set(s[1][1]) <= set(c[1]):
                out.append(s)
                continue
            out.append(('when', c, [s], s[-1]))
        return out

    def each(self, f, fld, sub, subj):
        var = f.data[0]
        cs, other, line = self.chain(sub, (var, ()))
        if len(cs) == 1 and cs[0][0] == cs[0][1] == () and cs[0][2][0] == 'in' and len(cs[0][2][1]) == 1 and cs[0][2][1][0][0] == 'prim' and cs[0][2][1][0][3] == '':
            p = cs[0][2][1][0]
            if f.ob.view or f.ob.sort:
                raise Bad('view of primitives')
            return [('prim', p[1], p[2], fld, p[4])]
        if len(cs) == 1 and cs[0][0] == cs[0][1] == () and cs[0][2][0] == 'in' and len(cs[0][2][1]) == 1 and cs[0][2][1][0][:2] == ('wrap', ()):
            w = cs[0][2][1][0]
            if len(w[3]) == 1 and w[3][0][0] == 'prim' and w[3][0][3] == '' and not (f.ob.view or f.ob.sort):
                p = w[3][0]
                return [('oprim', w[2], p[1], p[2], fld, p[4])]
        return [('each', fld, f.ob.view, f.ob.sort, cs, other, line)]

    def chain(self, items, subj, pos=(), neg=()):
        """cases for one object"""
        out, other, line = [], 'skip', 0
        own = []
        for it in items:
            if it[0] == 'block' and it[1].kind in ('case', 'notcase') and under(it[1].ob, subj) == ():
                p, n = (pos + (it[1].data[0],), neg) if it[1].kind == 'case' else (pos, neg + it[1].data[0])
                c, o, l = self.chain(it[2], subj, p, n)
            elif it[0] == 'block' and it[1].kind in ('some', 'truthy') and under(it[1].ob, subj) == ():
                c, o, l = self.chain(it[2], subj, pos, neg)
            elif it[0] == 'error':
                c, o, l = [], it[1], it[2]
            else:
                if it[0] == 'call' and under(it[2], subj) == ():
                    self.form(it[1])
                    cs, other2 = self.expand(it[1])
                    if cs[0][2] != ('sig', it[1]):
                        if len(items) > 1:
                            raise Bad('class chain beside other content')
                        return [(pos + p, neg + n, b) for p, n, b in cs], other2, it[3]
                own.append(it)
                l = self.line([it])
                line = line or l
                continue
            out += c
            other = o if o != 'skip' else other
            line = line or l
        if own:
            if out:
                raise Bad('class tests beside other content')
            if len(own) == 1 and own[0][0] == 'call' and under(own[0][2], subj) == ():
                b = ('sig', own[0][1])
            else:
                sl = self.norm(own, subj, [])
                if len(sl) == 1 and sl[0][0] == 'wrap':
                    p = self.primlike(sl[0][3])
                    if p:
                        sl = [('prim', sl[0][2], p, '', sl[0][4])]
                b = ('in', sl, line)
            out.append((pos, neg, b))
        return out, other, line


if __name__ == '__main__':
    W = Writer()
    sig = ('writeARPackage', ('E', ('O', 'ARPackage')))
    W.summary(*sig)
    N = Norm(W)
    N.form(sig)
    print(len(N.forms), 'forms')
    for l, c, m in sorted(set((l, c[0] if c else None, m) for l, c, m in N.errors), key=str):
        print(l, c, m)
