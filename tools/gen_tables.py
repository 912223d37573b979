#!/usr/bin/env python3
"""Transcribes the tables of /repo into Lean modules.

* code tables  : /repo/src/generated/**/*.rs.inc      -> lean/Verif/Tables/*.lean
* mapping files: /repo/encoding_tables/**/*.txt       -> lean/Verif/Spec/Published/*.lean

The two are read from different files on purpose: the first is part of the
modelled program, the second part of the specification.
"""
import re, os
R = '/repo/'
OUT = os.path.join(os.path.dirname(os.path.abspath(__file__)), '../lean/Verif/')

def line_of(text, pos):
    return text.count('\n', 0, pos) + 1

def parse_inc(path):
    """DECODE_TABLE as [(code, line)], ENCODE_TABLE as [(code, bytes, line)] and line ranges."""
    t = open(R + path, encoding='utf-8').read()
    d = re.search(r'DECODE_TABLE: \[char; (\d+)\] = \[(.*?)\];', t, re.S)
    dec = [(int(m[2], 16) if m[2] else 0xFFFD, line_of(t, d.start(2) + m.start()))
           for m in re.finditer(r"'(\\u\{([0-9A-F]+)\}|�)'", d[2])]
    assert len(dec) == int(d[1])
    e = re.search(r'ENCODE_TABLE: \[\(char, (?:u8|\[u8; 2\])\); (\d+)\] = \[(.*?)\];', t, re.S)
    enc = [(int(m[1], 16), [int(x, 16) for x in re.findall('0x([0-9A-F]+)', m[2])],
            line_of(t, e.start(2) + m.start()))
           for m in re.finditer(r"\('\\u\{([0-9A-F]+)\}', (\[?0x[^()]*?)\)", e[2])]
    assert len(enc) == int(e[1])
    rng = lambda m: (line_of(t, m.start()), line_of(t, m.end() - 1))
    return dec, enc, rng(d), rng(e)

def parse_txt(path, base):
    r = []
    for n, l in enumerate(open(R + path, encoding='utf-8', errors='replace'), 1):
        p = l.split()
        if len(p) >= 2 and not p[0].startswith('#') and not p[1].startswith('#'):
            r.append((int(p[0], base), int(p[1], 16), n))
    return r

def wrap(items, width=96):
    out, cur = [], '  '
    for i, x in enumerate(items):
        s = x + (', ' if i + 1 < len(items) else '')
        if len(cur) + len(s) > width:
            out.append(cur.rstrip()); cur = '  '
        cur += s
    out.append(cur.rstrip())
    return '\n'.join(out)

def lit(items):
    return '[\n' + wrap(items) + ']'

def write(path, text):
    os.makedirs(os.path.dirname(OUT + path), exist_ok=True)
    open(OUT + path, 'w', encoding='utf-8').write(text)

HEAD = '/-! Generated by tools/gen_tables.py from {src}. -/\n\nnamespace {ns}\n\n'

def single():
    rs = open(R + 'src/single_byte.rs', encoding='utf-8').read()
    mods = re.findall(r'pub mod (\w+) \{[^}]*?include!\("(generated/single_byte/([\w-]+)_tables\.rs\.inc)"\);', rs)
    assert len(mods) == 30
    c = HEAD.format(src='/repo/src/generated/single_byte/*_tables.rs.inc', ns='Verif.Tables')
    s = HEAD.format(src='/repo/encoding_tables/single_byte/ascii_ext/*.txt', ns='Verif.Spec.Published')
    for name, inc, base in mods:
        dec, enc, rd, re_ = parse_inc('src/' + inc)
        c += (f'/-- Code points of `DECODE_TABLE` (0xFFFD is the literal `\'�\'`, "undefined").\n'
              f'src/{inc}:{rd[0]}-{rd[1]} -/\n'
              f'def {name}_decode : List Nat := {lit([hex(x) for x, _ in dec])}\n\n')
        c += (f'/-- `ENCODE_TABLE` as (code point, byte).\n'
              f'src/{inc}:{re_[0]}-{re_[1]} -/\n'
              f'def {name}_encode : List (Nat × Nat) := {lit(["(%s, %s)" % (hex(a), hex(b[0])) for a, b, _ in enc])}\n\n')
        tp = f'encoding_tables/single_byte/ascii_ext/{base}.txt'
        t = parse_txt(tp, 16)
        s += (f'/-- (byte, code point) lines of {tp}:{t[0][2]}-{t[-1][2]} -/\n'
              f'def {name} : List (Nat × Nat) := {lit(["(%s, %s)" % (hex(a), hex(b)) for a, b, _ in t])}\n\n')
    write('Tables/SingleByte.lean', c + 'end Verif.Tables\n')
    write('Spec/Published/SingleByte.lean', s + 'end Verif.Spec.Published\n')

def whatwg(name, lean, index, indexlean, width, encw=128):
    inc = f'src/generated/whatwg/{name}_whatwg_tables.rs.inc'
    dec, enc, rd, re_ = parse_inc(inc)
    o = HEAD.format(src='/repo/' + inc, ns=f'Verif.Tables.{lean}')
    n = 0
    for i in range(0, len(dec), width):
        r = dec[i:i + width]
        o += (f'/-- `DECODE_TABLE[{i}..{i+len(r)}]`, code points, 0xFFFD is `\'�\'`.  {inc}:{r[0][1]}-{r[-1][1]} -/\n'
              f'def decRow{n} : List Nat := {lit([hex(x) for x, _ in r])}\n\n')
        n += 1
    o += (f'/-- Rows of `DECODE_TABLE`, {width} entries each (the last may be shorter).  {inc}:{rd[0]}-{rd[1]} -/\n'
          f'def decRows : List (List Nat) := {lit([f"decRow{i}" for i in range(n)])}\n\n')
    write(f'Tables/{lean}Decode.lean', o + f'end Verif.Tables.{lean}\n')
    o = HEAD.format(src='/repo/' + inc, ns=f'Verif.Tables.{lean}')
    n = 0
    for i in range(0, len(enc), encw):
        r = enc[i:i + encw]
        o += (f'/-- `ENCODE_TABLE[{i}..{i+len(r)}]`, (code point, byte 0, byte 1).  {inc}:{r[0][2]}-{r[-1][2]} -/\n'
              f'def encRow{n} : List (Nat × Nat × Nat) := '
              + lit(["(%s, %s, %s)" % (hex(a), hex(b[0]), hex(b[1])) for a, b, _ in r]) + '\n\n')
        n += 1
    o += (f'/-- Rows of `ENCODE_TABLE`, {encw} entries each (the last may be shorter).  {inc}:{re_[0]}-{re_[1]} -/\n'
          f'def encRows : List (List (Nat × Nat × Nat)) := {lit([f"encRow{i}" for i in range(n)])}\n\n')
    write(f'Tables/{lean}Encode.lean', o + f'end Verif.Tables.{lean}\n')
    tp = f'encoding_tables/whatwg/index-{index}.txt'
    t = parse_txt(tp, 10)
    ns = f'Verif.Spec.Published.{indexlean}'
    o = HEAD.format(src='/repo/' + tp, ns=ns)
    nrows = (len(dec) + width - 1) // width
    assert max(p for p, _, _ in t) < nrows * width
    for k in range(nrows):
        r = [x for x in t if x[0] // width == k]
        cite = f'{tp}:{r[0][2]}-{r[-1][2]}' if r else f'{tp} (no line)'
        o += (f'/-- Lines (pointer, code point) with pointer in [{k*width}, {(k+1)*width}).  {cite} -/\n'
              f'def row{k} : List (Nat × Nat) := ' + (lit(["(%d, %s)" % (a, hex(b)) for a, b, _ in r]) if r else '[]') + '\n\n')
    o += (f'/-- All lines of the index, grouped by pointer div {width}.  {tp}:{t[0][2]}-{t[-1][2]} -/\n'
          f'def rows : List (List (Nat × Nat)) := {lit([f"row{i}" for i in range(nrows)])}\n\n')
    write(f'Spec/Published/{indexlean}.lean', o + f'end {ns}\n')

single()
whatwg('shiftjis', 'ShiftJis', 'jis0208', 'Jis0208', 188)
whatwg('big5', 'Big5', 'big5', 'Big5', 157)
