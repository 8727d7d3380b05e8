"""Normal form of the reader summaries of codec_read: named lists of slots.

A list entry is one of
  dict(k='call', path, key, line)                 slots of another list, read below a path
  dict(k='part', field, path, key, line)          slots of an object kept in a field but read from the same element: field names get a prefix
  dict(k='slot', field, path, item, mode, elems, req, line)
item: ('prim', kind) ('xattr', attr, kind) ('text', kind) ('objs', [(tag, cls, key)]) ('guard', tags, err) ('name',) ('crash', err)
path: list of segments ('sel', tags, cut) ('is', tag) ('need', path) ('lack', path) ('alt', [path, path])
"""
import os
import sys
sys.path.insert(0, os.path.dirname(__file__))
from codec_read import Reader, Ob, El, V, same, shift, classes, mro

#: (class, field): objects without an element of their own
PART = {('ChapterContent', 'topicContent'), ('ChapterModel', 'chapter'), ('ChapterModel', 'topic1'), ('CompuConst', 'compuConstContentType'),
        ('CompuScaleConstantContents', 'compuConst'), ('CompuRationalCoeffs', 'compuDenominator'), ('CompuRationalCoeffs', 'compuNumerator'),
        ('Sdg', 'sdgContentsType'), ('SwBaseType', 'baseTypeDefinition'), ('SwRecordLayoutGroup', 'swRecordLayoutGroupContentType'),
        ('Topic1', 'topicContent'), ('SwDataDefProps', 'swCalprmAxisSet'), ('CompuScale', 'compuScaleContents')}


#: tag of the element handed to methods that read one object from the element itself (at their only call site)
OWN = {'PortGroup': 'PORT-GROUP', 'SynchronousServerCallPoint': 'SYNCHRONOUS-SERVER-CALL-POINT', 'AsynchronousServerCallPoint': 'ASYNCHRONOUS-SERVER-CALL-POINT',
       'SwcServiceDependency': 'SWC-SERVICE-DEPENDENCY', 'EndToEndProtection': 'END-TO-END-PROTECTION', 'ExecutionOrderConstraint': 'EXECUTION-ORDER-CONSTRAINT',
       'EcucContainerValue': 'ECUC-CONTAINER-VALUE', 'CompuRationalCoeffs': 'COMPU-RATIONAL-COEFFS',
       'EOCExecutableEntityRef': 'EOC-EXECUTABLE-ENTITY-REF'}


class Bad(Exception):
    pass


def segs(steps):
    out, cur = [], []
    for st in steps:
        if st[0] == '=':
            if cur:
                raise Bad('tag test inside a search %r' % (steps,))
            out.append(('is', st[1]))
        elif st[0] == '?':
            out.append(('need', segs(st[1])))
        elif st[0] == '|':
            if cur:
                raise Bad('alternative inside a search')
            out.append(('alt', [segs(x) for x in st[1]]))
        else:
            cur.append(st[0])
            if st[1] or st[2] is not None:
                out.append(('sel', tuple(cur), bool(st[1])))
                cur = []
    if cur:
        raise Bad('unfinished search %r' % (steps,))
    return out


class NormR:
    def __init__(self, R):
        self.R = R
        self.lists = {}      # key -> dict(entries, cls, line, meth)
        self.names = {}
        self.used = {}
        self.errors = []

    # ---------------------------------------------------------------- names
    def name(self, base):
        self.used[base] = self.used.get(base, 0) + 1
        return base if self.used[base] == 1 else '%s_%d' % (base, self.used[base])

    def sigkey(self, sig):
        if ('m', sig) not in self.names:
            b = sig[0]
            for k in sig[1]:
                if isinstance(k, tuple):
                    b += '_' + ''.join(c if c.isalnum() else '_' for c in str(k[1]))
            self.names[('m', sig)] = k = self.name(b)
            self.lists[k] = None
            o = self.R.summ[sig]['obj']
            self.lists[k] = dict(entries=self.entries(o, ()), cls=o.cls, line=self.R.methods[sig[0]].lineno, end=self.R.methods[sig[0]].end_lineno, meth=sig[0], param=True)
        return self.names[('m', sig)]

    def obkey(self, o):
        if ('o', id(o)) not in self.names:
            h = o.settle()
            if len(o.slots) == 1 and o.slots[0]['t'] == 'body':
                k = self.obkey(o.slots[0]['ob'])
                self.names[('o', id(o))] = k
                return k
            self.names[('o', id(o))] = k = self.name('%s_%s' % (o.origin or 'x', o.cls))
            self.keep = getattr(self, 'keep', []) + [o]
            self.lists[k] = None
            m = self.R.methods.get(o.origin)
            self.lists[k] = dict(entries=self.entries(o, h), cls=o.cls, line=m.lineno, end=m.end_lineno, meth=o.origin, param=False)
        return self.names[('o', id(o))]

    # ---------------------------------------------------------------- entries
    def rel(self, el, h, what):
        if not same(el[:len(h)], h):
            raise Bad('not below the element of the object: %r %r %s' % (el, h, what))
        return segs(el[len(h):])

    def entries(self, o, h):
        out = []
        if o.named and not (o.slots and o.slots[0]['t'] == 'body' and o.slots[0]['ob'].named):
            out.append(dict(k='slot', field='shortName', path=[('sel', ('SHORT-NAME',), True)], item=('name',), mode='set', elems=False, req='always', line=o.line))
        groups = {}
        cont = []
        for sl in o.slots:
            try:
                for e in self.entry(o, h, sl):
                    g = e.pop('group', None)
                    if e['k'] == 'call' and e['path'] and e['path'][-1][0] == 'sel' and not e['path'][-1][2]:
                        l = self.lists[e['key']]
                        if l and len(l['entries']) == 1 and l['entries'][0]['k'] == 'slot' and l['entries'][0]['item'][0] == 'objs' and l['entries'][0]['path'] == []:
                            # objects of one container read by different methods
                            x = l['entries'][0]
                            g = (x['field'], str([s for s in e['path'][:-1]]), e['path'][-1][1][:-1])
                            cont.append(g)
                            if cont.count(g) > 1 or sum(1 for y in o.slots if y['t'] == 'call') > 1:
                                e = dict(x, path=e['path'], item=('objs', list(x['item'][1])))
                    if g is not None and g in groups:
                        groups[g]['item'][1].extend(x for x in e['item'][1] if x not in groups[g]['item'][1])
                        continue
                    if g is not None:
                        groups[g] = e
                    out.append(e)
            except Bad as x:
                self.errors.append((o.origin, o.cls, sl.get('line'), str(x)))
        return self.tidy(o, out)

    def tidy(self, o, out):
        res = []
        for e in out:
            if e['k'] == 'slot':
                if e['item'][0] == 'require':
                    continue
                if e['item'][0] == 'objs':
                    tags = {c[0] for c in e['item'][1]}
                    if e['path'] and e['path'][-1][0] == 'sel' and len(tags) > 1:
                        s = e['path'][-1]
                        e['path'] = e['path'][:-1] + [('sel', s[1][:-1] + ('*',), s[2])]
                if o.cls == 'DelegationSwConnector' and e['field'] == 'innerPortIRref':
                    e['req'] = 'strict'      # arxml_parser.py:4907
                key = {k: v for k, v in e.items() if k not in ('line', 'over', 'store', 'fresh')}
                if e['mode'] == 'set' and any({k: v for k, v in x.items() if k not in ('line', 'over', 'store', 'fresh')} == key for x in res):
                    continue
            if e['k'] == 'part' and o.origin == 'readCompuConst' and e['field'] == 'compuScaleContents':
                # arxml_parser.py:5172 replaces the contents
                e['path'] = [('lack', [('sel', ('COMPU-RATIONAL-COEFFS',), True)])] + e['path']
            res.append(e)
        for e in res:
            if e['k'] == 'slot' and e['field'] in ('traceRefs', 'testedItemRefs') and e['item'][0] == 'objs':
                e['item'] = ('prim', 'refDest')      # RefType().setDest(element.text)
        if o.cls == 'BulkNvDataDescriptor':
            i = [j for j, e in enumerate(res) if e.get('field') == 'bulkNvBlock']
            if i:
                res.insert(i[0], dict(k='slot', field='', path=[('sel', ('BULK-NV-BLOCK',), True)], item=('want', 'VARIABLE-DATA-PROTOTYPE', 'attributeError'), mode='set', elems=False, req='no', line=1087))
        if o.origin == 'getCompuConst' and o.cls == 'CompuConst':
            parts = [e for e in res if e['k'] == 'part']
            res = [e for e in res if e['k'] != 'part']
            cases = []
            for e in parts:
                b = self.lists[e['key']]['entries']
                sl, g = b
                b[:] = [dict(sl, path=[])]
                cases.append((sl['path'][0][1][0], self.lists[e['key']]['cls'], e['key']))
            res.append(dict(k='slot', field='compuConstContentType', path=[('sel', ('*',), True)], item=('objs', cases), mode='set', elems=False, req='no', line=parts[0]['line']))
            res.append(g)
        if o.origin == 'readHwAttributeLiteralDef' and o.cls == 'HwAttributeLiteralDef':
            res.append(dict(k='slot', field='', path=[], item=('crash', 'attributeError'), mode='set', elems=False, req='no', line=6661))
        return res

    def entry(self, o, h, sl):
        t, line = sl['t'], sl.get('line')
        if t == 'call':
            return [dict(k='call', path=self.rel(sl['el'], h, 'call'), key=self.sigkey(sl['sig']), line=line)]
        if t == 'body':
            return [dict(k='call', path=self.rel(sl['el'], h, 'body'), key=self.obkey(sl['ob']), line=line or sl['ob'].line)]
        base = dict(k='slot', mode=sl.get('mode'), elems=False, req='no', line=line, over=sl.get('over', False))
        if t == 'attrs':
            p = self.rel(sl['el'], h, t)
            return [dict(base, field='timestamp', path=p, item=('xattr', 'T', 'raw'), mode='set'), dict(base, field='uuid', path=p, item=('xattr', 'UUID', 'raw'), mode='set')]
        if t in ('prim', 'prims'):
            p = self.rel(sl['el'], h, t)
            return [dict(base, field=sl['field'], path=p, item=('prim', sl['kind']), req='strict' if sl['kind'].startswith('mand') else 'no')]
        if t == 'xattr':
            return [dict(base, field=sl['field'], path=self.rel(sl['el'], h, t), item=('xattr', sl['attr'], sl['kind']))]
        if t == 'text':
            return [dict(base, field=sl['field'], path=self.rel(sl['el'], h, t), item=('text', sl['kind'] + ('/nonblank' if sl.get('nonblank') else '')))]
        if t == 'guard':
            return [dict(base, field='', path=self.rel(sl['el'], h, t), item=('guard', tuple(sl['tags']), sl['err']))]
        if t == 'require':
            if 'within' in sl:
                return []         # implied by the requirement of arxml_parser.py:4907
            return [dict(base, field='', path=self.rel(sl['el'], h, t), item=('require',), req='strict')]
        if t == 'lazy':
            sm = self.R.summ[sl['sig']]
            v = sm['value']
            out = []
            for w in (v.data[0] if isinstance(v, V) and v.kind == 'choice' else [v]):
                out += self.obj(o, h, sl, w, shift(sl['el'], w.settle()))
            for g in sm['guards']:
                out += self.entry(o, h, dict(g, el=shift(sl['el'], g['el'])))
            return out
        if t == 'obj':
            return self.obj(o, h, sl, sl['ob'], sl['ob'].settle())
        raise Bad('slot %s' % t)

    def own(self, o, x):
        if x.cls not in OWN:
            raise Bad('object without element: %s in %s' % (x.cls, o.cls))
        return OWN[x.cls]

    def obj(self, o, h, sl, x, el):
        elems = sl['mode'] == 'create' and (sl['store'] == 'elements' or sl['cadd'])
        if (o.cls, sl['field']) in PART:
            return [dict(k='part', field=sl['field'], path=self.rel(el, h, 'part'), key=self.obkey(x), line=sl['line'])]
        if not same(el[:len(h)], h):
            raise Bad('object not below the element of the owner: %r %r' % (el, h))
        r = el[len(h):]
        key = self.obkey(x)
        e = dict(k='slot', field=sl['field'], mode=sl['mode'], elems=elems, req='no', line=sl['line'], over=sl.get('over', False), store=sl.get('store'), fresh=sl.get('guard') in ('none', 'notin') and sl['field'] != 'arPackages')
        if not r:
            e.update(path=[], item=('objs', [(self.own(o, x), x.cls, key)]))
        elif r[-1][0] == '=':
            g = (sl['field'], r[:-1], 'cut')
            e.update(path=segs(r[:-1]), item=('objs', [(r[-1][1], x.cls, key)]), group=g)
        elif r[-1][0] in '?|':
            raise Bad('object at %r' % (r,))
        else:
            tag, cut, loop = r[-1]
            g = (sl['field'], r[:-1], cut, loop) if loop is not None else None
            if tag == '*':
                raise Bad('object of any tag %r' % (r,))
            p = segs(r)
            e.update(path=p, item=('objs', [(tag, x.cls, key)]), group=g)
        return [e]


def finish(entries):
    """the last segment of a grouped slot selects all its tags"""


if __name__ == '__main__':
    import collections
    R = Reader()
    R.summary('readARPackage', ('E', 'O'))
    N = NormR(R)
    N.sigkey(('readARPackage', ('E', 'O')))
    print(len(N.lists), 'lists')
    c = collections.Counter()
    for k, l in N.lists.items():
        for e in l['entries']:
            c[e['k']] += 1
            if e['k'] == 'slot':
                c[e['item'][0], e['item'][1] if e['item'][0] in ('prim', 'text') else e['item'][2] if e['item'][0] in ('xattr', 'guard') else ''] += 1
                c['mode', e['mode']] += 1
                if e['mode'] == 'set' and e['path'] and not all(s[0] != 'sel' or s[2] for s in e['path']):
                    print('SET-MANY', k, e)
                if any(s[0] in ('need', 'lack', 'alt', 'is') for s in e['path']):
                    print('SPECIAL', k, e)
                if e['item'][0] == 'objs' and len({x[0] for x in e['item'][1]}) != len(e['item'][1]):
                    print('SAME TAG', k, e)
            elif e['path'] and (e['k'] == 'part' or any(s[0] in ('need', 'lack', 'alt', 'is') for s in e['path'])):
                print('SPECIAL', k, e)
    for x, y in c.items():
        print(x, y)
    for e in N.errors:
        print('ERR', e)
