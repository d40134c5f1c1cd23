"""Generate Verif/Quant/Tables.lean and Verif/Quant/Scans.lean from /repo/src."""
import re, textwrap

OUT = '/verif/lean/Verif/Quant/'


def fmt(xs):
    s = ', '.join(map(str, xs))
    return '\n'.join('   ' + l for l in textwrap.wrap(s, 94)).lstrip()


def arrays(path, pat):
    src = open(path).read()
    res = []
    for m in re.finditer(pat, src):
        end = src.index('];', m.end())
        xs = [int(t) for t in re.findall(r'\d+', src[m.end():end])]
        a = src.count('\n', 0, m.start()) + 1
        b = src.count('\n', 0, end) + 1
        res.append((m.group(1), xs, a, b, int(m.group(2)) if m.lastindex > 1 else None))
    return res


o = ['/-\nGenerated by /verif/tools/gen_quant.py from /repo/src/quantize/tables.rs: the quantizer step\n'
     'tables in Q3, for 8, 10 and 12 bits.\n-/\nnamespace Rav1e.Quant.Tables\n']
for name, xs, a, b, _ in arrays('/repo/src/quantize/tables.rs', r'const (\w+)_raw: \[u16; QINDEX_RANGE\] = \['):
    assert len(xs) == 256, name
    o.append(f'/-- `quantize/tables.rs:{a}-{b}` -/\ndef {name} : List Nat :=\n  [{fmt(xs)}]\n')
o.append('end Rav1e.Quant.Tables\n')
open(OUT + 'Tables.lean', 'w').write('\n'.join(o))

o = ['/-\nGenerated by /verif/tools/gen_quant.py from /repo/src/scan_order.rs: the coefficient scan tables.\n'
     'A position is `column * height + row` (the transform output is stored transposed).\n-/\n'
     'set_option maxRecDepth 8192\n\nnamespace Rav1e.Quant.Scans\n']
src = open('/repo/src/scan_order.rs').read()
for name, xs, a, b, n in arrays('/repo/src/scan_order.rs', r'static (\w+_scan_\w+) ?: \[u16; (\d+)\] = \['):
    assert len(xs) == n, name
    o.append(f'/-- `scan_order.rs:{a}-{b}` -/\ndef {name} : List Nat :=\n  [{fmt(xs)}]\n')
# every iscan table is invert of the scan of the same name
inv = dict(re.findall(r'static (\w+_iscan_\w+): \[u16; \d+\] = invert\((\w+)\);', src))
i = src.index('pub static av1_scan_orders')
l0 = src.count('\n', 0, i) + 1
body = src[i:]
pairs = re.findall(r'SCAN_ORDER \{ scan: &(\w+), iscan: &(\w+) \}', body)
assert len(pairs) == 19 * 16
for s, t in pairs:
    assert inv[t] == s, (s, t)
l1 = src.count('\n') 
rows = []
for r in range(19):
    row = [s for s, _ in pairs[16 * r:16 * r + 16]]
    rows.append('[' + fmt(row) + ']')
o.append(f'/-- `av1_scan_orders`, `scan_order.rs:{l0}-{l1}`: the `scan` member of each entry, one row per transform\n'
         'size in the order of `TxSize`, one column per transform type. In the source the `iscan` member of each\n'
         'entry is `invert` of the same table (the generator checks this). -/\n'
         'def av1_scan_orders : List (List (List Nat)) :=\n  [' + ',\n   '.join(rows) + ']\n')
o.append('end Rav1e.Quant.Scans\n')
open(OUT + 'Scans.lean', 'w').write('\n'.join(o))
