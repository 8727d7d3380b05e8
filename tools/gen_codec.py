"""Emits the reader and writer methods as Lean definitions (Verif/Gen/Read*, Verif/Gen/Write*) and the list of pairs of a reader
body with the writer body for the objects it makes (Verif/Gen/Pairs).

Methods that were specialised to different classes with the same result are emitted once (coarsest bisimulation)."""
import os
import re
import sys
sys.path.insert(0, os.path.dirname(__file__))
from codec_match import load, Match, RSIG, WSIG
from leanemit import emit_bst, kenc

OUT = os.path.join(os.path.dirname(__file__), '..', 'lean', 'Verif', 'Gen')
PARSER = 'parser/arxml_parser.py'
WRITER = 'writer/arxml_writer.py'


def K(s):
    if s in ('*', ''):
        return '0'
    return 'k!"%s"' % s


def Ks(l):
    return '[%s]' % ', '.join(K(x) for x in l)


def partition(nodes, shape, succ):
    """coarsest partition: same shape, successors pairwise in the same blocks"""
    block = {}
    ids = {}
    for n in nodes:
        block[n] = ids.setdefault(shape(n), len(ids))
    while True:
        ids = {}
        nb = {}
        for n in nodes:
            nb[n] = ids.setdefault((block[n],) + tuple(block[m] for m in succ(n)), len(ids))
        if len(ids) == len(set(block.values())):
            return nb
        block = nb


# ------------------------------------------------------------------------------------------------ reader
RK = {'literal': 'lit', 'identifier': 'lit', 'verbatim': 'lit', 'mandLiteral': 'lit', 'literals': 'litPlain', 'plain': 'litPlain', 'revision': 'revision',
      'float': 'float', 'floats': 'floats', 'time': 'time', 'boolean': 'boolean', 'numerical': 'numerical', 'integer': 'integer', 'positive': 'positive',
      'numericals': 'numericals', 'limit': 'limit', 'ref': 'ref', 'refs': 'ref', 'mandRef': 'ref', 'refDest': 'refDest'}
TK = {'raw': 'raw', 'raw/nonblank': 'rawNonblank', 'String': 'litText', 'VerbatimStringPlain/nonblank': 'litNonblank', 'Numerical/nonblank': 'litNonblank',
      'VerbatimString': 'litPlain', 'DependencyUsageEnum': 'litPlain', 'ARLiteral': 'litPlain', 'NameToken!': 'litPlain'}
GE = {'notImplemented': '.unsupported', 'raiseError': '.invalid', 'unbound': '.unbound'}
PE = {'attributeError': '.attributeError', 'AttributeError': '.attributeError', 'valueError': '.valueError'}
#: com specs that `addProvidedComSpec`, `addRequiredComSpec` check: attribute, DEST, has to be there
AIM = {'getNonqueuedSenderComSpec_NonqueuedSenderComSpec_port': ('dataElementRef', 'VARIABLE-DATA-PROTOTYPE', True),        # Components/__init__.py:313-317
       'getClientComSpec_ClientComSpec_port': ('operationRef', 'CLIENT-SERVER-OPERATION', False),                            # :359-362
       'getNonqueuedReceiverComSpec_NonqueuedReceiverComSpec_port': ('dataElementRef', 'VARIABLE-DATA-PROTOTYPE', False),    # :363-366
       'getParameterRequireComSpec_ParameterRequireComSpec_port': ('parameterRef', 'PARAMETER-DATA-PROTOTYPE', False)}       # :371-374


def akind(k):
    if k == 'raw':
        return '.raw'
    if k.startswith('mapped:'):
        return '(.mapped .%s)' % {'BINDING_TIME_XML_MAP': 'bindingTime', 'INTERVAL_TYPE_XML_MAP': 'intervalType'}[k[7:]]
    return '.lit'


def path(p, rest='.nil'):
    if not p:
        return rest
    g, r = p[0], p[1:]
    if g[0] == 'sel':
        if g[2]:
            return '(.first %s %s)' % (Ks(g[1]), path(r, rest))
        out = path(r, rest)
        for t in reversed(g[1]):
            out = '(.all %s %s)' % (K(t), out)
        return out
    if g[0] in ('need', 'lack'):
        return '(.%s %s %s)' % (g[0], path(g[1]), path(r, rest))
    if g[0] == 'alt':
        a, b = g[1]
        if all(len(x) == 1 and x[0][0] == 'sel' and x[0][2] and len(x[0][1]) == 1 for x in (a, b)):
            return '(.pick %s %s)' % (Ks([a[0][1][0], b[0][1][0]]), path(r, rest))
        return '(.alt %s %s)' % (path(a + r, rest), path(b + r, rest))
    if g[0] == 'pick':
        return '(.pick %s %s)' % (Ks(g[1]), path(r, rest))
    raise Exception(g)


class Reads:
    def __init__(self, NR):
        self.L = {k: dict(l, entries=self.fix(k, l['entries'])) for k, l in NR.lists.items()}
        self.ports()
        self.reach()
        self.block = partition(sorted(self.live), self.shape, self.succ)
        self.rep = {}
        for k in sorted(self.live, key=lambda k: (len(k), k)):
            self.rep.setdefault(self.block[k], k)
        self.names = {}

    def fix(self, key, es):
        out = []
        for e in es:
            e = dict(e)
            if e['k'] == 'slot':
                if e['item'][0] == 'name':
                    e['field'] = 'short_name'
                # find(SW-AXIS-INDIVIDUAL) sets, find(SW-AXIS-GROUPED) sets again: the second wins
                if e['line'] == 3942 and e['field'] == 'swCalprmAxisTypeProps':
                    first = e
                    continue
                if e['line'] == 3945 and e['field'] == 'swCalprmAxisTypeProps':
                    e['path'] = [('pick', ('SW-AXIS-GROUPED', 'SW-AXIS-INDIVIDUAL'))]
                    e['item'] = ('objs', list(e['item'][1]) + list(first['item'][1]))
                # readImplementation (L2813) sets the same attribute again from find() of the whole path, which finds whatever this finds
                if e['line'] == 3009 and e['field'] == 'buildActionManifestRef':
                    continue
                # a test on the children of the object that is being read
                if key == 'readSocketAddressApplicationEndpoint' and e['line'] == 6066:
                    continue
            out.append(e)
        if key == 'readSocketAddressApplicationEndpoint_ApplicationEndpoint':
            out.append(dict(k='slot', mode=None, elems=False, req='no', line=6066, field='', path=[('sel', ('TP-CONFIGURATION', '*'), True)],
                            item=('guard', ('UDP-TP', 'TCP-TP', 'GENERIC-TP'), 'notImplemented')))
        return out

    def ports(self):
        """`PPortPrototype` and `RPortPrototype` check the com specs that are added, `PRPortPrototype` does not"""
        nv = 'getNvRequireComSpec_NvRequireComSpec_port'
        for k in list(AIM) + [nv]:
            self.L[k] = dict(self.L[k[:-5]])
        # addRequiredComSpec does not know the class, Components/__init__.py:375-376
        self.L[nv]['entries'] = self.L[nv]['entries'] + [
            dict(k='slot', mode=None, elems=False, req='no', line=4324, field='', path=[], item=('crash', 'valueError'))]
        for k in ('readProvidedComSpec', 'readRequiredComSpec'):
            assert self.L[k]['cls'] != 'PRPortPrototype'
            for e in self.L[k]['entries']:
                if e['item'][0] == 'objs':
                    e['item'] = ('objs', [(t, c, m + '_port' if m + '_port' in self.L else m) for t, c, m in e['item'][1]])

    def succs(self, k):
        for e in self.L[k]['entries']:
            if e['k'] != 'slot':
                yield e['key'], False
            elif e['item'][0] == 'objs':
                for t, c, key in e['item'][1]:
                    yield key, True

    def reach(self):
        self.live, self.bodies = set(), {RSIG[0]}
        todo = [RSIG[0]]
        while todo:
            k = todo.pop()
            if k in self.live:
                continue
            self.live.add(k)
            for m, b in self.succs(k):
                if b:
                    self.bodies.add(m)
                todo.append(m)

    def shape(self, k):
        out = [AIM.get(k)]
        for e in self.L[k]['entries']:
            if e['k'] == 'slot':
                it = e['item']
                if it[0] == 'objs':
                    it = ('objs',) + tuple((t, c) for t, c, _ in it[1])
                out.append(('slot', e['field'], str(e['path']), e['mode'] if e['mode'] == 'create' else self.last(e), e['elems'], e['req'], str(it),
                            e.get('fresh'), e.get('store') == 'field', e.get('over')))
            else:
                out.append((e['k'], e.get('field'), str(e['path'])))
        return tuple(out)

    def succ(self, k):
        return [m for m, _ in self.succs(k)]

    def last(self, e):
        """a setter called in a loop"""
        return e['mode'] == 'set' and any(g[0] == 'sel' and not g[2] for g in e['path'])

    def lname(self, k):
        return self.rep[self.block[k]]

    def bodykey(self, k):
        """objects: class and list"""
        return (self.L[k]['cls'], self.block[k])

    def bname(self, k):
        b = self.bodykey(k)
        if b not in self.names:
            c = [x for x in self.bodies if self.bodykey(x) == b]
            self.names[b] = min(c, key=lambda x: (len(x), x))
        return self.names[b]

    def item(self, e):
        it = e['item']
        if it[0] == 'prim':
            return '(.prim .%s)' % RK[it[1]]
        if it[0] == 'text':
            return '(.prim .%s)' % TK[it[1]]
        if it[0] == 'xattr':
            return '(.attr %s %s)' % (K(it[1]), akind(it[2]))
        if it[0] == 'name':
            return '.name'
        if it[0] == 'objs':
            return '(.objs [%s])' % ', '.join('(%s, %s)' % (K(t), K(self.bname(k))) for t, c, k in it[1])
        if it[0] == 'guard':
            return '(.guard %s %s)' % (Ks(it[1]), GE[it[2]])
        if it[0] == 'want':
            return '(.want %s %s)' % (K(it[1]), PE[it[2]])
        if it[0] == 'crash':
            return '(.crash %s)' % PE[it[1]]
        raise Exception(it)

    def entry(self, e):
        if e['k'] == 'call':
            if not e['path']:
                return None, self.lname(e['key'])
            return None, 'via %s %s' % (path(e['path']), self.lname(e['key']))
        if e['k'] == 'part':
            return None, 'part %s %s %s' % (K(e['field']), path(e['path']), self.lname(e['key']))
        f = []
        if self.last(e):
            f.append('last := true')
        if e['elems']:
            f.append('elems := true')
        if e['mode'] == 'create':
            f.append('named := true')
            if e.get('store') == 'field' and any(g[0] == 'sel' and not g[2] for g in e['path']):
                f.append('one := true')
            if e['fresh']:
                f.append('fresh := true')
        if e['req'] != 'no':
            f.append('req := .%s' % e['req'])
        s = '{ field := %s, path := %s, item := %s%s }' % (K(e['field']), path(e['path']), self.item(e), ''.join(', ' + x for x in f))
        return s, None

    def define(self, k):
        l = self.L[k]
        segs = []
        for e in l['entries']:
            s, c = self.entry(e)
            if s is not None:
                if not segs or not isinstance(segs[-1], list):
                    segs.append([])
                segs[-1].append((s, e['line']))
            else:
                segs.append((c, e['line']))
        txt = []
        for g in segs:
            if isinstance(g, list):
                txt.append('[' + ',\n   '.join('/- %s -/ %s' % (ln, s) for s, ln in g) + ']')
            else:
                txt.append('/- %s -/ %s' % (g[1], g[0]))
        same = sorted({self.L[x]['meth'] for x in self.live if self.block[x] == self.block[k]} - {l['meth']})
        doc = '`%s`, `%s:%d-%d`' % (l['meth'], PARSER, l['line'], l['end'])
        if not l.get('param', True):
            doc += ' (the `%s` it makes)' % l['cls']
        if same and len(same) < 4:
            doc += '; also ' + ', '.join('`%s`' % x for x in same)
        elif same:
            doc += '; also %d other methods' % len(same)
        txt = ' ++\n  '.join(txt) if txt else '[]'
        if k.endswith('_port'):
            doc += '; with what ports check, `Components/__init__.py:312-380`'
        if k in AIM:
            f, d, must = AIM[k]
            txt = 'aim %s t!"%s" %s (\n  %s)' % (K(f), d, 'true' if must else 'false', txt)
        return '/-- %s -/\ndef %s : List RSlot :=\n  %s\n' % (doc, k, txt)

    def order(self):
        seen, out = set(), []

        def go(k):
            k = self.lname(k)
            if k in seen:
                return
            seen.add(k)
            for m, b in self.succs(k):
                if not b:
                    go(m)
            out.append(k)
        for k in sorted(self.live):
            go(k)
        return out

    def flat(self, k):
        out = []
        for e in self.L[k]['entries']:
            if e['k'] == 'slot':
                out.append(e)
            else:
                pre = e['field'] + '.' if e['k'] == 'part' else ''
                for s in self.flat(e['key']):
                    out.append(dict(s, path=list(e['path']) + list(s['path']), field=(pre + s['field']) if s['field'] else ''))
        return out

    def overs(self, k, pre=''):
        """attributes that are assigned even if there is nothing to read"""
        out = []
        for e in self.L[k]['entries']:
            if e['k'] == 'slot':
                if e.get('over'):
                    out.append(pre + e['field'])
            else:
                o = self.overs(e['key'], pre + e['field'] + '.' if e['k'] == 'part' else pre)
                if e['path'] and o:
                    print('OVER below a path', k, e['key'], e['path'], o)
                else:
                    out += o
        return out

    def named(self):
        """objects created by name"""
        return {key for k in self.live for e in self.L[k]['entries'] if e['k'] == 'slot' and e['mode'] == 'create' for t, c, key in e['item'][1]}

    def dups(self, k):
        seen = set()
        for e in self.flat(k):
            if e['item'][0] in ('guard', 'want', 'crash'):
                continue
            x = (e['field'], e['elems'])
            if x in seen and e['field'] != 'elements':
                return True
            seen.add(x)
        return False


# ------------------------------------------------------------------------------------------------ writer
def wkind(k):
    return {'literal': '.lit', 'numerical': '.numerical', 'ref': '.ref', 'limit': '.limit', 'plain:raw:': '.raw', 'plain:getValue:': '.getValue',
            'plain:getText:': '.getText'}[k]


def wakind(k):
    if k.startswith('mapped:'):
        return akind(k)
    return '.' + k


class Writes:
    """bodies: ('sig', sig) or ('in', name, slots, line)"""

    def __init__(self, NW):
        self.NW = NW
        self.B = {}
        self.cases = set()
        self.flatn = {}
        self.add(('sig', WSIG), None)
        self.cases.add(self.key(('sig', WSIG), None))
        self.block = partition(sorted(self.B), self.shape, lambda k: list(self.refs(k)))
        self.rep = {}
        for k in sorted(self.B, key=lambda k: (len(k), k)):
            self.rep.setdefault(self.block[k], k)

    def mname(self, sig):
        parts = [sig[0]]
        for a in sig[1]:
            if isinstance(a, tuple):
                parts.append(str(a[1]))
        return re.sub(r'[^A-Za-z0-9_]', '_', '_'.join(p for p in parts if p != 'None'))

    def key(self, b, parent):
        if b[0] == 'sig':
            n = self.mname(b[1])
            base, i = n, 2
            while n in self.flatn and self.flatn[n] != ('sig', b[1]):
                n = '%s_%d' % (base, i)
                i += 1
            self.flatn[n] = ('sig', b[1])
            return n
        n = '%s_L%d' % (parent.split('_L')[0] if '_L' in parent else parent, b[2])
        base, i = n, 2
        while n in self.flatn and self.flatn[n] != ('in', id(b[1])):
            n = '%s_%d' % (base, i)
            i += 1
        self.flatn[n] = ('in', id(b[1]))
        return n

    def add(self, b, parent):
        k = self.key(b, parent)
        if k in self.B:
            return k
        if b[0] == 'sig':
            slots, meth = self.NW.forms[b[1]], b[1][0]
            line = None
        else:
            slots, meth, line = b[1], self.B[parent]['meth'], b[2]
        self.B[k] = dict(meth=meth, line=line, slots=None)
        self.B[k]['slots'] = self.conv(slots, k)
        return k

    def conv(self, slots, k):
        out = []
        for s in slots:
            if s[0] == 'each':
                if s[1] == 'short_name':
                    assert s[4][0][2][1][0] == 'setShortName'
                    out.append(('prim', 'SHORT-NAME', 'plain:raw:', 'short_name', s[6]))
                    continue
                cs = []
                for pos, neg, b in s[4]:
                    n = self.add(b, k)
                    self.cases.add(n)
                    cs.append((pos, neg, n))
                out.append(('each', s[1], s[2], s[3], cs, s[5], s[6]))
            elif s[0] == 'wrap':
                out.append(('wrap', s[1], s[2], self.conv(s[3], k), s[4]))
            elif s[0] == 'when':
                out.append(('when', s[1], self.conv(s[2], k), s[3]))
            elif s[0] == 'call':
                out.append(('call', self.add(('sig', s[1]), k), s[2]))
            else:
                out.append(s)
        return out

    def refs(self, k):
        def go(slots):
            for s in slots:
                if s[0] == 'each':
                    for c in s[4]:
                        yield c[2]
                elif s[0] == 'wrap':
                    yield from go(s[3])
                elif s[0] == 'when':
                    yield from go(s[2])
                elif s[0] == 'call':
                    yield s[1]
        return go(self.B[k]['slots'])

    def shape(self, k):
        def go(slots):
            out = []
            for s in slots:
                if s[0] == 'each':
                    out.append(('each', s[1], s[2], s[3], tuple((c[0], c[1]) for c in s[4]), s[5]))
                elif s[0] == 'wrap':
                    out.append(('wrap', s[1], s[2], go(s[3])))
                elif s[0] == 'when':
                    out.append(('when', s[1], go(s[2])))
                elif s[0] == 'call':
                    out.append(('call',))
                else:
                    out.append(s[:-1])
            return str(out)
        return go(self.B[k]['slots'])

    def name(self, k):
        return self.rep[self.block[k]]

    def src(self, f):
        if isinstance(f, tuple):
            return '(%s, %s)' % (K(f[0]), Ks(f[1] or ()))
        return '(%s, [])' % K(f)

    def cond(self, c):
        if c == ():
            return '.always'
        if c[0] in ('any', 'none'):
            return '(.%s [%s])' % (c[0], ', '.join(self.src(f) for f in c[1]))
        return '(.%s %s)' % (c[0], Ks(c[1]))

    def case(self, c):
        pos = []
        for p in c[0]:
            if p[0] == '=':
                pos.append('(true, [%s])' % K(p[1]))
            else:
                pos.append('(false, %s)' % Ks(p))
        return '⟨[%s], %s, %s⟩' % (', '.join(pos), Ks(c[1]), K(self.name(c[2])))

    def body(self, slots, ind):
        if not slots:
            return '.nil'
        s, r = slots[0], slots[1:]
        pad = '\n' + ' ' * ind
        ln = '/- %s -/ ' % s[-1] if s[-1] else ''
        if s[0] == 'attr':
            return '%s.attr %s %s %s <|%s%s' % (ln, K(s[1]), wakind(s[2]), K(s[3]), pad, self.body(r, ind))
        if s[0] == 'text':
            return '%s.text %s %s <|%s%s' % (ln, wakind(s[1]), K(s[2]), pad, self.body(r, ind))
        if s[0] == 'prim':
            return '%s.prim %s %s %s <|%s%s' % (ln, K(s[1]), wkind(s[2]), K(s[3]), pad, self.body(r, ind))
        if s[0] == 'oprim':
            return '%s.oprim %s %s %s %s <|%s%s' % (ln, K(s[1]), K(s[2]), wkind(s[3]), K(s[4]), pad, self.body(r, ind))
        if s[0] == 'each':
            o = {'skip': '.skip', 'notImplemented': '.unsupported', '_raiseError': '.invalid'}[s[5]]
            cs = (',' + pad + '  ').join(self.case(c) for c in s[4])
            return '%s.each %s %s %s [%s] %s <|%s%s' % (ln, K(s[1]), Ks(s[2] or ()), {'nested': '.nested', True: '.sorted'}.get(s[3], '.plain'), cs, o, pad, self.body(r, ind))
        if s[0] == 'wrap':
            return '%s.wrap %s %s (%s  %s) <|%s%s' % (ln, self.cond(s[1]), K(s[2]), pad, self.body(s[3], ind + 2), pad, self.body(r, ind))
        if s[0] == 'when':
            return '%s.when %s (%s  %s) <|%s%s' % (ln, self.cond(s[1]), pad, self.body(s[2], ind + 2), pad, self.body(r, ind))
        if s[0] == 'error':
            e, a = {'notImplemented': ('.notImplemented', 'false'), '_raiseError': ('.valueError', 'false'), 'attributeError': ('.attributeError', 'true')}[s[1]]
            return '%s.fail %s %s <|%s%s' % (ln, e, a, pad, self.body(r, ind))
        if s[0] == 'call':
            return '%s%s.app <|%s%s' % (ln, self.name(s[1]), pad, self.body(r, ind))
        raise Exception(s)

    def define(self, k, lines):
        b = self.B[k]
        a, z = lines[b['meth']]
        same = sorted({self.B[x]['meth'] for x in self.B if self.block[x] == self.block[k]} - {b['meth']})
        doc = '`%s`, `%s:%d-%d`' % (b['meth'], WRITER, a, z)
        if b['line']:
            doc += ' (the block at line %d)' % b['line']
        if same and len(same) < 4:
            doc += '; also ' + ', '.join('`%s`' % x for x in same)
        elif same:
            doc += '; also %d other methods' % len(same)
        return '/-- %s -/\ndef %s : WB :=\n  %s\n' % (doc, k, self.body(b['slots'], 2))

    def order(self):
        seen, out = set(), []

        def calls(slots):
            for s in slots:
                if s[0] == 'call':
                    yield s[1]
                elif s[0] == 'wrap':
                    yield from calls(s[3])
                elif s[0] == 'when':
                    yield from calls(s[2])

        def go(k):
            k = self.name(k)
            if k in seen:
                return
            seen.add(k)
            for m in calls(self.B[k]['slots']):
                go(m)
            out.append(k)
        for k in sorted(self.B):
            go(k)
        return out

    def tags(self, k):
        def go(slots):
            out = set()
            for s in slots:
                if s[0] in ('prim', 'oprim'):
                    out.add(s[1])
                elif s[0] == 'wrap':
                    out.add(s[2])
                elif s[0] == 'when':
                    out |= go(s[2])
                elif s[0] == 'call':
                    out |= self.tags(s[1])
                elif s[0] == 'each':
                    for c in s[4]:
                        out |= self.tags(c[2])
            return out
        if k not in self.tcache:
            self.tcache[k] = go(self.B[k]['slots'])
        return self.tcache[k]
    tcache = {}


HEAD = '-- generated by tools/gen_codec.py; do not edit\n'


def emit_chunks(stem, ns, defs, per, imports):
    """modules stem0, stem1, ... each importing the one before"""
    mods = []
    for i in range(0, len(defs), per):
        n = '%s%d' % (stem, i // per)
        imp = imports if not mods else ['Verif.Gen.' + mods[-1]]
        with open(os.path.join(OUT, n + '.lean'), 'w') as f:
            f.write(''.join('import %s\n' % m for m in imp) + HEAD)
            f.write('namespace Verif.Gen.%s\nopen Verif Verif.Model\n\n' % ns)
            f.write('\n'.join(defs[i:i + per]))
            f.write('\nend Verif.Gen.%s\n' % ns)
        mods.append(n)
    j = len(mods)
    while os.path.exists(os.path.join(OUT, '%s%d.lean' % (stem, j))):
        os.remove(os.path.join(OUT, '%s%d.lean' % (stem, j)))
        j += 1
    return mods


def main():
    NR, NW = load()
    R = Reads(NR)
    W = Writes(NW)
    ro = R.order()
    rdefs = [R.define(k) for k in ro]
    rm = emit_chunks('Read', 'R', rdefs, 150, ['Verif.Model.Codec'])
    bodies = {}
    for k in R.bodies:
        bodies[R.bname(k)] = (R.L[k]['cls'], R.lname(k), R.dups(k))
    ents = [(n, '⟨%s, %s⟩' % (K(c), ('dropDup R.%s' if d else 'R.%s') % l), None) for n, (c, l, d) in bodies.items()]
    with open(os.path.join(OUT, 'ReadTable.lean'), 'w') as f:
        f.write('import Verif.Model.Bst\nimport Verif.Gen.%s\n' % rm[-1] + HEAD + 'namespace Verif.Gen\nopen Verif Verif.Model\n\n')
        f.write('\n'.join(emit_bst('readTable', 'RBody', ents, 'the objects the reader makes: the class and the method that fills the new object')))
        f.write('\nend Verif.Gen\n')
    ov = {}
    for k in R.named() | {RSIG[0]}:
        o = tuple(dict.fromkeys(R.overs(k)))
        if ov.setdefault(R.bname(k), o) != o:
            print('OVER differs', R.bname(k), ov[R.bname(k)], o)
    with open(os.path.join(OUT, 'OverTable.lean'), 'w') as f:
        f.write('import Verif.Model.Bst\nimport Verif.Model.Codec\n' + HEAD + 'namespace Verif.Gen\nopen Verif Verif.Model\n\n')
        f.write('\n'.join(emit_bst('overTable', 'List Key', [(n, Ks(o), None) for n, o in ov.items() if o],
                                   'the attributes a reader method assigns even if there is nothing to read, for the objects created by name')))
        f.write('\nend Verif.Gen\n')

    import ast
    lines = {}
    tree = ast.parse(open('/repo/src/armodel/' + WRITER).read())
    for c in tree.body:
        if isinstance(c, ast.ClassDef):
            for m in c.body:
                if isinstance(m, ast.FunctionDef):
                    lines[m.name] = (m.lineno, m.end_lineno)
    wo = W.order()
    wdefs = [W.define(k, lines) for k in wo]
    wm = emit_chunks('Write', 'W', wdefs, 120, ['Verif.Model.Codec'])
    cs = sorted({W.name(k) for k in W.cases})
    with open(os.path.join(OUT, 'WriteTable.lean'), 'w') as f:
        f.write('import Verif.Model.Bst\nimport Verif.Gen.%s\n' % wm[-1] + HEAD + 'namespace Verif.Gen\nopen Verif Verif.Model\n\n')
        f.write('\n'.join(emit_bst('writeTable', 'WB', [(k, 'W.' + k, None) for k in cs], 'the writer methods called for an object')))
        f.write('\n')
        f.write('\n'.join(emit_bst('tagTable', 'List Key', [(k, Ks(sorted(W.tags(k))), None) for k in cs],
                                   'the tags of the elements a writer method adds to the element it is given')))
        f.write('\nend Verif.Gen\n')
    print(len(rdefs), 'reader lists', len(ents), 'bodies', len(wdefs), 'writer methods', len(cs), 'cases')
    return R, W


if __name__ == '__main__':
    main()
