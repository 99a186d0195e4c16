#!/usr/bin/env python3
"""Generate lean/Verif/Model/Charsets.lean, .. from pairs of rule files /repo/modules/from/X.txt, /repo/modules/to/X.txt."""
import re
CAP = 12
def load(kind, n):
    rows, where = [], '/repo/modules/%s/%s.txt' % (kind, n)
    for ln in open(where, encoding='utf8', errors='replace'):
        ln = ln.split('#')[0].strip()
        if not ln or ln.lower().startswith('source'): continue
        a, b = ln.split()[:2]
        assert re.fullmatch('[0-9A-Fa-f]+', a) and re.fullmatch('[0-9A-Fa-f]+', b), (where, ln)
        rows.append((a.upper(), b.upper()))
    assert len({a for a, _ in rows}) == len(rows), where
    return rows
def code(h):
    assert len(h) in (2, 4) and not h.startswith('00'), h
    return int(h, 16)
def char(h):
    if h.startswith('0100') and len(h) == 6: h = '01' + h[4:]  # only in from/_CP932.txt: see Model/Cp932
    assert h.startswith('01') and not h.startswith('0100'), h
    return int(h[2:], 16)
def runs(ps):
    ps, out = sorted(ps), []
    for k, v in ps:
        if out and out[-1][0] + len(out[-1][1]) == k and len(out[-1][1]) < CAP: out[-1][1].append(v)
        else: out.append((k, [v]))
    return out
def chart(ps):
    o = []
    rs = runs(ps)
    for i, (k, vs) in enumerate(rs):
        s = "  (0x%X, [" % k
        items = ["0x%X" % v for v in vs]
        for j in range(0, len(items), 16):
            s += ("\n    " if j else "") + ", ".join(items[j:j+16]) + ("," if j + 16 < len(items) else "")
        o.append(s + "])" + ("," if i + 1 < len(rs) else "]"))
    return o
def wide(ps):
    o = []
    rs = runs(ps)
    for i, (k, vs) in enumerate(rs):
        assert all(0 < v < 65536 for v in vs)
        o.append("  (0x%X, 0x" % k + "_".join("%04X" % v for v in vs) + ")" + ("," if i + 1 < len(rs) else "]"))
    return o
def gen(module, sets, big=True):
    o = ["import Verif.Spec.Charset", "/-", "Generated by tools/charsets.py from rule files of /repo/modules/from and /repo/modules/to.", "-/",
         "namespace Verif.Charsets", "open Verif.Spec", "", "set_option maxRecDepth 100000", ""]
    for nm, f, *g in sets:
        g = g[0] if g else f  # None: there is no file for writing
        F, T = load('from', f) if f else [], load('to', g) if g else []  # f None: there is no file for reading
        rd = [(code(a), char(b)) for a, b in F]
        wr = [(char(a), code(b)) for a, b in T if not a.startswith('0100')]
        small = big and all(v < 65536 for _, v in rd)
        odd = [(int(a[2:], 16), code(b)) for a, b in T if a.startswith('0100')]
        assert all(len(a) == 6 for a, _ in T if a.startswith('0100'))
        if f: o += ["/-- The rules of /repo/modules/from/%s.txt: code, character.  No two lines have the same code, so their order does not matter; here they" % f,
              "are sorted. -/", ("def %sReads : Chart := Chart.wide [" if small else "def %sReads : Chart := [") % nm] + (wide if small else chart)(rd) + [""]
        if g: o += ["/-- The rules of /repo/modules/to/%s.txt: character, code.  No two lines have the same character; sorted.  Lines `0100..`, if any, are" % g,
              "listed separately. -/", ("def %sWrites : Chart := Chart.wide [" if big else "def %sWrites : Chart := [") % nm] + (wide if big else chart)(wr) + [""]
        o += ["/-- /repo/modules/to/%s.txt; there is no file for reading. -/" % g if not f else "/-- /repo/modules/from/%s.txt and /repo/modules/to/%s.txt. -/" % (f, g) if g else "/-- /repo/modules/from/%s.txt; there is no file for writing. -/" % f,
              "def %s : Charset where" % nm, ("  reads := %sReads" % nm) if f else "  reads := []", "  writes := %sWrites" % nm if g else "  writes := []"]
        if odd: o += ["  odd := [" + ", ".join("(0x%X, 0x%X)" % x for x in odd) + "]"]
        o += [""]
    o += ["end Verif.Charsets", ""]
    open('/verif/lean/Verif/Model/%s.lean' % module, 'w').write("\n".join(o))
if __name__ == '__main__':
    gen('Charsets', [('iso88591', '_ISO-8859-1'), ('cp1251', '_CP1251'), ('cp1252', '_CP1252'), ('cp1253', '_CP1253'), ('cp874', '_CP874')], False)
    gen('SjisTable', [('shiftJis', '_SHIFT-JIS')])
    gen('Gb2312Table', [('gb2312', '_GB2312')])
    gen('Cp949Table', [('cp949', '_CP949')])
    gen('Cp936Table', [('cp936', '_CP936')])
    gen('GbkTable', [('gbk', '_GBK')])
    gen('Big5Table', [('big5', '_UAO250', '_CP950')])

    gen('JisTables', [('jis0201', '_JIS0201', None), ('jis0208', '_JIS0208', None), ('jis0212', '_JIS0212')])
    gen('TransTables', [('cp936Trans', None, 'CP936-TRANS'), ('gbkTrans', None, 'GBK-TRANS'), ('cp950Trans', None, 'CP950-TRANS'), ('gb2312Trans', None, 'GB2312-TRANS')])
    gen('Cp932Table', [('cp932', '_CP932', None)])
    gen('Cp125xTable', [('cp1254', '_CP1254', None), ('cp1255', '_CP1255', None), ('cp1256', '_CP1256', None), ('cp1257', '_CP1257', None), ('cp1258', '_CP1258', None)], False)
    gen('HkscsTable', [('cp950r', '_CP950', None), ('hkscs1999', '_HKSCS1999', None), ('hkscs2001', '_HKSCS2001', None), ('hkscs2004', '_HKSCS2004', None)])
    gen('FamilyTable', [('big52003', '_BIG5-2003', None), ('big5Eten', '_BIG5-ETEN', None), ('big5e', '_BIG5E', None), ('uao241', '_UAO241', None)])
