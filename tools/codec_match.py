"""Pairs the bodies of the reader (codec_norm_r) with the bodies of the writer (codec_norm_w) and reports every slot that does not round-trip.
The Lean development repeats this check inside the kernel; this script only drives the search for defects."""
import os
import sys
import collections
sys.path.insert(0, os.path.dirname(__file__))
from codec_read import Reader, classes, mro
from codec_write import Writer
import codec_norm_r
import codec_norm_w

RSIG = ('readARPackage', ('E', 'O'))
WSIG = ('writeARPackage', ('E', ('O', 'ARPackage')))


def load():
    R = Reader()
    R.summary(*RSIG)
    NR = codec_norm_r.NormR(R)
    NR.sigkey(RSIG)
    W = Writer()
    W.summary(*WSIG)
    NW = codec_norm_w.Norm(W)
    NW.form(WSIG)
    # no statement may be left out, except in the form of a method for a class that cannot be (`ServiceDependency` is abstract; the
    # form of `readAttributeValueVariationPoint` for every class of its own is used) and one the reader has a `crash` for (6661)
    for c, l, m in R.errors + W.errors:
        if not m.startswith('NOTE ') and not m.startswith('model method ServiceDependency.') and l not in (2038, 6661):
            raise Exception('%s:%d %s' % (c, l, m))
    return NR, NW


class Match:
    def __init__(self, NR, NW):
        self.NR, self.NW = NR, NW
        self.rcache, self.wcache = {}, {}
        self.pairs = {}
        self.bad = []

    # ---------------------------------------------------------------- flat bodies
    def rbody(self, key):
        if key not in self.rcache:
            out = []
            for e in self.NR.lists[key]['entries']:
                if e['k'] == 'slot':
                    out.append(e)
                else:
                    pre = e['field'] + '.' if e['k'] == 'part' else ''
                    for s in self.rbody(e['key']):
                        out.append(dict(s, path=list(e['path']) + list(s['path']), field=(pre + s['field']) if s['field'] else ''))
            self.rcache[key] = out
        return self.rcache[key]

    def wflat(self, slots):
        out = []
        for s in slots:
            if s[0] == 'call':
                out += self.wflat(self.NW.forms[s[1]])
            elif s[0] == 'wrap':
                out.append(('wrap', s[1], s[2], self.wflat(s[3]), s[4]))
            elif s[0] == 'when':
                out.append(('when', s[1], self.wflat(s[2]), s[3]))
            else:
                out.append(s)
        return out

    def wbody(self, b):
        """body reference ('sig', sig) or ('in', slots, line)"""
        if b[0] == 'sig':
            if b[1] not in self.wcache:
                self.wcache[b[1]] = self.wflat(self.NW.forms[b[1]])
            return self.wcache[b[1]]
        if id(b[1]) not in self.wcache:
            self.wcache[id(b[1])] = self.wflat(b[1])
        return self.wcache[id(b[1])]

    # ---------------------------------------------------------------- tags
    def tags(self, slots):
        out = set()
        for s in slots:
            out |= self.tags1(s)
        return out

    def tags1(self, s):
        if s[0] == 'prim':
            return {s[1]}
        if s[0] == 'oprim':
            return {s[1]}
        if s[0] == 'wrap':
            return {s[2]}
        if s[0] == 'when':
            return self.tags(s[2])
        if s[0] == 'each':
            return set().union(*[self.tags(self.wbody(c[2])) for c in s[4]]) if s[4] else set()
        return set()

    def isub(self, c, ds):
        return any(d[1] == c if isinstance(d, tuple) else d in mro(classes, c) for d in ds)

    def holds(self, cond, cls, field, view):
        """is the condition implied: True / False / None (depends)"""
        if cond == ():
            return True
        if cond[0] == 'any':
            if field in cond[1] or (field, view) in cond[1]:
                return True
            return None
        if cond[0] == 'cls':
            return self.isub(cls, cond[1])
        if cond[0] == 'notcls':
            return not self.isub(cls, cond[1])
        return None

    # ---------------------------------------------------------------- locate
    def locate(self, path, slots, cls, conds):
        """writer slot reached by a path: (slot, conds) | None | raises"""
        if not path:
            return ('here', slots, conds)
        g = path[0]
        if g[0] == 'sel':
            return self.down(list(g[1]), path[1:], slots, cls, conds)
        if g[0] == 'need':
            r = self.locate(g[1], slots, cls, [])
            if r is None or r[0] != 'here' or any(c != () for c in r[2]):
                raise codec_norm_r.Bad('need')
            return self.locate(path[1:], slots, cls, conds)
        if g[0] == 'lack':
            return self.locate(path[1:], slots, cls, conds + [('lack', g[1])])
        if g[0] == 'alt':
            r = []
            for a in g[1]:
                x = self.locate(a + path[1:], slots, cls, conds)
                if x is not None:
                    r.append(x)
            if not r:
                return None
            if len(r) > 1 and any(x[1] is not r[0][1] for x in r):
                raise codec_norm_r.Bad('several alternatives')
            return r[0]
        raise codec_norm_r.Bad('path %r' % (g,))

    def flatwhen(self, slots, conds):
        for s in slots:
            if s[0] == 'when':
                yield from self.flatwhen(s[2], conds + [s[1]])
            else:
                yield s, conds

    def down(self, tags, rest, slots, cls, conds):
        t = tags[0]
        c = []
        for s, cs in self.flatwhen(slots, conds):
            if any(self.holds(x, cls, None, None) is False for x in cs):
                continue
            tg = self.tags1(s)
            if t in tg or t == '*' and tg:
                c.append((s, cs))
        if not c:
            return None
        if len(c) > 1:
            raise codec_norm_r.Bad('several writer slots for %s: lines %s' % (t, [x[0][-1] for x in c]))
        s, cs = c[0]
        if s[0] == 'wrap':
            cs = cs + [s[1]]
            if len(tags) > 1:
                return self.down(tags[1:], rest, s[3], cls, cs)
            return self.locate(rest, s[3], cls, cs)
        if s[0] == 'oprim':
            p = ([('sel', (x,), False) for x in tags[1:]]) + list(rest)
            if self.thru(p, s[2]):
                return ('prim', s[1:], cs, t)
        if len(tags) > 1 or rest:
            return ('through', s, cs, t, tags[1:], rest)
        return (s[0], s, cs, t)

    def thru(self, p, t):
        if len(p) != 1:
            return False
        if p[0][0] == 'sel':
            return p[0][1] == (t,)
        if p[0][0] == 'alt':
            a, b = p[0][1]
            return self.thru(a, t) or (len(a) == 1 and a[0][0] == 'sel' and a[0][1][0] != t and self.thru(b, t))

    # ---------------------------------------------------------------- pairs
    def pair(self, rk, wslots, why):
        cls = self.NR.lists[rk]['cls']
        key = (rk, id(wslots))
        if key in self.pairs:
            return
        self.pairs[key] = (rk, wslots)
        for s in self.rbody(rk):
            try:
                self.slot(rk, cls, s, wslots)
            except codec_norm_r.Bad as e:
                self.report(rk, cls, s, str(e))

    def report(self, rk, cls, s, msg):
        self.bad.append((rk, cls, s, msg))

    RW = {('literal', 'literal'), ('identifier', 'literal'), ('revision', 'literal'), ('mandLiteral', 'literal'), ('verbatim', 'literal'),
          ('integer', 'numerical'), ('positive', 'numerical'), ('numerical', 'numerical'), ('boolean', 'literal'), ('float', 'literal'), ('time', 'literal'),
          ('ref', 'ref'), ('refs', 'ref'), ('mandRef', 'ref'), ('limit', 'limit'), ('literals', 'literal'), ('plain', 'plain:raw:'), ('numericals', 'numerical'), ('floats', 'literal')}

    def slot(self, rk, cls, s, W):
        it = s['item']
        if it[0] in ('guard', 'want'):
            return
        if it[0] == 'crash':
            raise codec_norm_r.Bad('crash')
        r = self.locate(s['path'], W, cls, [])
        if r is None:
            raise codec_norm_r.Bad('not written')
        if it[0] in ('xattr', 'text') and r[0] == 'here':
            c = [x for x in self.flatwhen(r[1], r[2]) if x[0][0] == ('attr' if it[0] == 'xattr' else 'text') and (it[0] == 'text' or x[0][1] == it[1])]
            if not c:
                raise codec_norm_r.Bad('attribute/text not written')
            if len(c) > 1:
                raise codec_norm_r.Bad('several')
            w, cs = c[0]
            wf, wk = (w[3], w[2]) if w[0] == 'attr' else (w[2], w[1])
            if wf != s['field']:
                raise codec_norm_r.Bad('written from %s L%s' % (wf, w[-1]))
            self.conds(cs, cls, s['field'], None)
            if it[0] == 'text' and self.tags(r[1]):
                raise codec_norm_r.Bad('text beside children')
            K['text' if it[0] == 'text' else 'xattr', it[-1], wk] += 1
            return
        if it[0] in ('xattr', 'text') and r[0] == 'prim':
            if it[0] == 'text' and r[1][3] == s['field']:
                K['textprim', it[-1], r[1][2]] += 1
                self.conds(r[2], cls, s['field'], None)
                return
            raise codec_norm_r.Bad('attribute of primitive')
        if it[0] == 'name':
            if r[0] == 'each' and r[1][1] == 'short_name' and not r[2]:
                return
            raise codec_norm_r.Bad('name %s' % (r,))
        if it[0] == 'prim':
            if r[0] == 'prim':
                if r[1][3] != s['field']:
                    raise codec_norm_r.Bad('written from %s L%s' % (r[1][3], r[1][-1]))
                self.conds(r[2], cls, s['field'], None)
                K['prim', it[1], r[1][2], s['path'][-1][2] if s['path'] and s['path'][-1][0] == 'sel' else 'x'] += 1
                return
            raise codec_norm_r.Bad('prim at %s %s' % (r[0], str(r)[:300]))
        if it[0] == 'objs':
            if r[0] != 'each':
                raise codec_norm_r.Bad('object at %s %s' % (r[0], str(r)[:200]))
            w = r[1]
            if w[1] != s['field'] and not (w[1] == 'elements' and s['elems']):
                raise codec_norm_r.Bad('written from %s L%s' % (w[1], w[-1]))
            self.conds(r[2], cls, w[1], w[2])
            if w[1] == 'elements':
                for o in self.rbody(rk):
                    if o['item'][0] == 'objs' and o['elems'] and o is not s:
                        for c in o['item'][1]:
                            if w[2] is None or self.isub(c[1], w[2]):
                                self.report(rk, cls, s, 'view also shows %s' % (c[1],))
                                break
            for tag, c, key in it[1]:
                if w[2] is not None and not self.isub(c, w[2]):
                    self.report(rk, cls, s, 'view hides %s' % c)
                    continue
                for pos, neg, b in w[4]:
                    if all(self.isub(c, (p,) if isinstance(p, tuple) and p[0] == '=' else p) for p in pos) and not self.isub(c, neg):
                        break
                else:
                    self.report(rk, cls, s, 'class %s not written (%s)' % (c, w[5]))
                    continue
                self.emission(rk, cls, s, tag, c, key, self.wbody(b))
            return
        raise codec_norm_r.Bad('item')

    def emission(self, rk, cls, s, tag, c, key, W):
        fl = [(x, cs) for x, cs in self.flatwhen(W, []) if not any(self.holds(y, c, None, None) is False for y in cs)]
        em = [x for x in fl if self.tags1(x[0]) or x[0][0] in ('attr', 'text')]
        if len(em) != 1:
            self.report(rk, cls, s, 'class %s: %d emissions L%s' % (c, len(em), W[0][-1] if W else ''))
            return
        x, cs = em[0]
        if x[0] == 'wrap':
            if x[2] != tag:
                self.report(rk, cls, s, 'class %s: read from %s written as %s' % (c, tag, x[2]))
                return
            for y in cs + [x[1]]:
                if self.holds(y, c, None, None) is not True:
                    COND[('emission', c, y)] += 1
            self.pair(key, x[3], rk)
            return
        if x[0] == 'prim' and x[1] == tag:
            b = self.rbody(key)
            if len(b) == 1 and b[0]['path'] == [] and b[0]['item'][0] == 'prim' and b[0]['field'] == x[3]:
                K['selfprim', b[0]['item'][1], x[2]] += 1
                return
        if x[0] == 'prim':
            self.report(rk, cls, s, 'class %s: primitive emission %s' % (c, x))
            return
        self.report(rk, cls, s, 'class %s: emission %s' % (c, str(x)[:200]))

    def conds(self, cs, cls, field, view):
        for c in cs:
            if c and c[0] == 'lack' or self.holds(c, cls, field, view) is None:
                COND[(cls, field, str(c))] += 1


K = collections.Counter()
COND = collections.Counter()

if __name__ == '__main__':
    NR, NW = load()
    M = Match(NR, NW)
    wp = M.wbody(('sig', WSIG))
    M.pair('readARPackage', wp[0][3] if wp[0][0] == 'wrap' else wp, None)
    print(len(M.pairs), 'pairs', sum(len(M.rbody(r)) for r, w in M.pairs.values()), 'slots')
    for k in K.items():
        print(k)
    for k in COND.items():
        print('COND', k)
    seen = set()
    for rk, cls, s, msg in M.bad:
        k = (s['field'], s['line'], msg)
        if k in seen:
            continue
        seen.add(k)
        print('BAD', rk, cls, 'L%s' % s['line'], s['field'], s['item'][:2] if s['item'][0] != 'objs' else 'objs', s['path'], '::', msg[:300])
