"""Helpers to emit Lean search trees."""


def kenc(s):
    return int.from_bytes(s.encode('utf-8'), 'big')


def emit_bst(name, ty, entries, doc, chunk=24):
    """entries: list of (name, lean value text, comment or None); returns Lean source lines."""
    es = sorted(entries, key=lambda e: kenc(e[0]))
    assert len({e[0] for e in es}) == len(es), name
    out = []
    cnt = [0]

    def lit(lst, ind):
        if not lst:
            return '.nil'
        m = len(lst) // 2
        k, v, c = lst[m]
        pad = ' ' * ind
        com = ('\n%s-- %s\n%s' % (pad, c, pad)) if c else ('\n' + pad)
        return '(.node %s%sk!"%s" %s\n%s%s)' % (lit(lst[:m], ind + 1), com, k, v, pad, lit(lst[m + 1:], ind + 1))

    def go(lst):
        if len(lst) <= chunk:
            nm = '%s%02d' % (name, cnt[0])
            cnt[0] += 1
            out.append('def %s : Bst (%s) :=\n %s\n' % (nm, ty, lit(lst, 1)))
            return nm
        m = len(lst) // 2
        l = go(lst[:m])
        r = go(lst[m + 1:])
        k, v, c = lst[m]
        nm = '%s%02d' % (name, cnt[0])
        cnt[0] += 1
        out.append('%sdef %s : Bst (%s) :=\n .node %s k!"%s" %s %s\n' % ('-- %s\n' % c if c else '', nm, ty, l, k, v, r))
        return nm
    top = go(es)
    out.append('/-- %s -/\ndef %s : Bst (%s) := %s\n' % (doc, name, ty, top))
    return out
