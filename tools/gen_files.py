#!/usr/bin/env python3
"""Copies the mapping files and the generated sources of /repo verbatim into Lean string literals.

/repo/encoding_tables/single_byte/ascii_ext/X.txt, /repo/src/generated/single_byte/X_tables.rs.inc
  -> lean/Verif/Files/SingleByte<n>.lean
/repo/encoding_tables/whatwg/index-X.txt, /repo/src/generated/whatwg/Y_whatwg_tables.rs.inc
  -> lean/Verif/Files/{ShiftJis,Big5}/*.lean
and writes the checks of these copies, lean/Verif/Proof/Files/*.lean.
"""
import re, os
R = '/repo/'
OUT = os.path.join(os.path.dirname(os.path.abspath(__file__)), '../lean/Verif/')

def read(path):
    t = open(R + path, 'rb').read().decode('utf-8')
    assert '\r' not in t and '"#' not in t and t.endswith('\n')
    return t

def write(path, text):
    os.makedirs(os.path.dirname(OUT + path), exist_ok=True)
    open(OUT + path, 'w', encoding='utf-8').write(text)

rs = open(R + 'src/single_byte.rs', encoding='utf-8').read()
mods = re.findall(r'pub mod (\w+) \{[^}]*?include!\("(generated/single_byte/([\w-]+)_tables\.rs\.inc)"\);', rs)
assert len(mods) == 30
part = 10
for n in range(0, 30, part):
    k = n // part + 1
    t = f'''import Verif.Text

/-! Generated by tools/gen_files.py: verbatim copies of files of /repo. -/

namespace Verif.Files
'''
    p = f'''import Verif.Files.SingleByte{k}
import Verif.Proof.FileChecks
import Verif.Spec.Published.SingleByte
import Verif.Tables.SingleByte

/-! Generated by tools/gen_files.py: the kernel compares the copies with the tables. -/

namespace Verif.Generator
'''
    for m, inc, base in mods[n:n + part]:
        txt = f'encoding_tables/single_byte/ascii_ext/{base}.txt'
        a, b = read(txt), read('src/' + inc)
        t += f'''
/-- {txt}:1-{a.count(chr(10))} -/
noncomputable def {m}_mapping : List Text := lines! r#"{a}"#

/-- src/{inc}:1-{b.count(chr(10))} -/
noncomputable def {m}_source : List Text := lines! r#"{b}"#
'''
        p += f'''
theorem {m}_mapping : linesB byteLineB nilB Files.{m}_mapping Spec.Published.{m} = true := by
  decide +kernel

theorem {m}_source : linesEqB (asciiExtLines Tables.{m}_decode Tables.{m}_encode)
    Files.{m}_source = true := by
  decide +kernel
'''
    write(f'Files/SingleByte{k}.lean', t + '\nend Verif.Files\n')
    write(f'Proof/Files/SingleByte{k}.lean', p + '\nend Verif.Generator\n')

pub = re.findall(r'\| \.(\w+) => Published\.(\w+)', open(OUT + 'Spec/Encodings.lean').read())
assert sorted(m for _, m in pub) == sorted(m[0] for m in mods)
t = ''.join(f'import Verif.Files.SingleByte{k}\n' for k in (1, 2, 3))
t += '''import Verif.Encoding

/-! Generated by tools/gen_files.py: the files of the single-byte encodings. -/

namespace Verif.Files

/-- The mapping file of an encoding, by lines; `[]` for ASCII and the multi-byte encodings.
encoding_tables/single_byte/ascii_ext -/
noncomputable def mapping : Encoding → List Text
''' + ''.join(f'  | .{e} => {m}_mapping\n' for e, m in pub) + '''  | _ => []

/-- The source that src/single_byte.rs includes as the module of an encoding, by lines; `[]` for
ASCII and the multi-byte encodings.  src/single_byte.rs:21-265, src/generated/single_byte -/
noncomputable def source : Encoding → List Text
''' + ''.join(f'  | .{e} => {m}_source\n' for e, m in pub) + '''  | _ => []

end Verif.Files
'''
write('Files/SingleByte.lean', t)

def whatwg(lean, inc, txt, pub, width, dgroup, parts_i, parts_d, parts_e):
    """The index in parts, one for each row of the transcribed index (`width` pointers); the source
    in parts, `dgroup` rows (of `width`) of the decode table and 3 rows (of 128) of the encode table."""
    inc = f'src/generated/whatwg/{inc}_whatwg_tables.rs.inc'
    txt = f'encoding_tables/whatwg/index-{txt}.txt'
    imports, chk = [], []
    def module(kind, n, defs, checks):
        write(f'Files/{lean}/{kind}{n}.lean', 'import Verif.Text\n\n'
              '/-! Generated by tools/gen_files.py: verbatim copies of parts of files of /repo. -/\n\n'
              f'namespace Verif.Files.{lean}\n\n' + '\n'.join(defs) + f'\nend Verif.Files.{lean}\n')
        write(f'Proof/Files/{lean}{kind}{n}.lean', f'import Verif.Files.{lean}.{kind}{n}\n'
              'import Verif.Proof.FileChecks\n'
              '\n/-! Generated by tools/gen_files.py: the kernel compares the copies with the tables. -/\n\n'
              f'namespace Verif.Generator.{lean}\n\n' + '\n'.join(checks) + f'\nend Verif.Generator.{lean}\n')
        imports.append(f'import Verif.Files.{lean}.{kind}{n}\n')
        chk.append(f'import Verif.Proof.Files.{lean}{kind}{n}\n')
    def modules(kind, items, per):
        for k in range(0, len(items), per):
            module(kind, k // per + 1, [d for d, _ in items[k:k + per]], [c for _, c in items[k:k + per]])
    def lines_def(name, path, first, ls):
        cite = f'{path}:{first}-{first + len(ls) - 1}' if ls else f'{path} (no line)'
        body = 'lines! r#"' + ''.join(ls) + '"#' if ls else '[]'
        return f'/-- {cite} -/\nnoncomputable def {name} : List Text := {body}\n'
    # the index
    ls = [l + '\n' for l in read(txt).split('\n')[:-1]]
    rows = len(re.findall(r'def row\d+ ', open(OUT + f'Spec/Published/{pub}.lean').read()))
    part, cur = [[] for _ in range(rows)], 0
    for l in ls:
        p = l.split()
        if len(p) >= 2 and not p[0].startswith('#'):
            assert int(p[0]) // width >= cur
            cur = int(p[0]) // width
        part[cur].append(l)
    items, first = [], 1
    for k, p in enumerate(part):
        items.append((lines_def(f'index{k}', txt, first, p),
            f'theorem index{k} : linesB indexLineB nilB Files.{lean}.index{k} '
            f'Spec.Published.{pub}.row{k} = true := by\n  decide +kernel\n'))
        first += len(p)
    modules('Index', items, parts_i)
    # the source
    src = [l + '\n' for l in read(inc).split('\n')[:-1]]
    a = next(i for i, l in enumerate(src) if l.startswith('const DECODE_TABLE'))
    b = next(i for i, l in enumerate(src) if l == '];\n')
    c = next(i for i, l in enumerate(src) if l.startswith('const ENCODE_TABLE'))
    assert c == b + 2 and src[-1] == '];\n'
    def table(kind, dfn, f, w, rowname, nrows, rowlen, group, l0, l1, per):
        step = rowlen * group // w
        assert rowlen * group % w == 0
        items = []
        n = 0
        for k in range(0, nrows, group):
            rs = range(k, min(k + group, nrows))
            i = l0 + n * step
            part = src[i:min(i + step, l1)]
            tab = '[' + ', '.join(f'Tables.{lean}.{rowname}{r}' for r in rs) + '].flatten'
            last = k + group >= nrows
            thm = (f'linesEqB (rowLines {f} {w} (List.length {tab}) {tab})\n    Files.{lean}.{dfn}{n}' if last
                   else f'chunkB {f} {w} {tab}\n    Files.{lean}.{dfn}{n}')
            items.append((lines_def(f'{dfn}{n}', inc, i + 1, part),
                f'theorem {dfn}{n} : {thm} = true := by\n  decide +kernel\n'))
            n += 1
        assert l0 + n * step >= l1
        modules(kind, items, per)
        return n
    dec = open(OUT + f'Tables/{lean}Decode.lean').read()
    enc = open(OUT + f'Tables/{lean}Encode.lean').read()
    ndr = len(re.findall(r'def decRow\d+ ', dec))
    ner = len(re.findall(r'def encRow\d+ ', enc))
    nd = table('Decode', 'decode', 'decK', 8, 'decRow', ndr, width, dgroup, a + 1, b, parts_d)
    ne = table('Encode', 'encode', 'enc2K', 3, 'encRow', ner, 128, 3, c + 1, len(src) - 1, parts_e)
    names = lambda n, k: '[' + ', '.join(f'{n}{i}' for i in range(k)) + ']'
    write(f'Files/{lean}.lean', ''.join(imports) + f'''
/-! Generated by tools/gen_files.py: the files of {lean}. -/

namespace Verif.Files.{lean}

/-- The parts of {txt} -/
noncomputable def indexParts : List (List Text) :=
  {names("index", rows)}

/-- {txt}, by lines -/
noncomputable def index : List Text := indexParts.flatten

{lines_def("head", inc, 1, src[:a + 1])}
{lines_def("mid", inc, b + 1, src[b:c + 1])}
{lines_def("tail", inc, len(src), src[-1:])}
/-- The parts of the lines of the decode table.  {inc}:{a + 2}-{b} -/
noncomputable def decodeParts : List (List Text) :=
  {names("decode", nd)}

/-- The parts of the lines of the encode table.  {inc}:{c + 2}-{len(src) - 1} -/
noncomputable def encodeParts : List (List Text) :=
  {names("encode", ne)}

/-- {inc}, by lines -/
noncomputable def source : List Text :=
  head ++ decodeParts.flatten ++ mid ++ encodeParts.flatten ++ tail

end Verif.Files.{lean}
''')
    def groups(rowname, n, g):
        return '[' + ',\n    '.join('[' + ', '.join(f'{rowname}{i}' for i in range(k, min(k + g, n))) + ']'
                                    for k in range(0, n, g)) + ']'
    chain = lambda n, k, last: ''.join(f'.cons {n}{i} <|\n  ' for i in range(k)) + last
    write(f'Proof/Files/{lean}.lean', ''.join(chk) + f'''import Verif.Files.{lean}

/-! Generated by tools/gen_files.py: the checks of the parts put together. -/

namespace Verif.Generator.{lean}

open Tables.{lean}

/-- The rows of the decode table, as many together as make whole lines. -/
def decGroups : List (List (List Nat)) :=
    {groups("decRow", ndr, dgroup)}

/-- The rows of the encode table, as many together as make whole lines. -/
def encGroups : List (List (List (Nat × Nat × Nat))) :=
    {groups("encRow", ner, 3)}

set_option maxRecDepth 100000 in
theorem decGroups_flatten : decGroups.flatten = decRows := rfl

set_option maxRecDepth 100000 in
theorem encGroups_flatten : encGroups.flatten = encRows := rfl

theorem index_parts : IndexParts Files.{lean}.indexParts Spec.Published.{pub}.rows :=
  {chain("index", rows, ".nil")}

theorem decode_parts : Chunks decK 8 (decGroups.map List.flatten) Files.{lean}.decodeParts :=
  {chain("decode", nd - 1, f".last decode{nd - 1}")}

theorem encode_parts : Chunks enc2K 3 (encGroups.map List.flatten) Files.{lean}.encodeParts :=
  {chain("encode", ne - 1, f".last encode{ne - 1}")}

end Verif.Generator.{lean}
''')

whatwg('ShiftJis', 'shiftjis', 'jis0208', 'Jis0208', 188, 2, 60, 30, 20)
whatwg('Big5', 'big5', 'big5', 'Big5', 157, 8, 64, 16, 25)

def hexa(b):
    h = b.hex().upper()
    return '"' + '\n  '.join(h[i:i + 96] for i in range(0, len(h), 96)) + '"'

def test_data(lean, base, txt, pub, width, nascii, npairs, last, never, per):
    """The test data in parts, one for each row of the transcribed index."""
    ls = [l.split() for l in read(f'encoding_tables/whatwg/index-{txt}.txt').split('\n')]
    index = [(int(p[0]), int(p[1], 16)) for p in ls if len(p) >= 2 and not p[0].startswith('#')]
    rows = len(re.findall(r'def row\d+ ', open(OUT + f'Spec/Published/{pub}.lean').read()))
    used = {}
    for p, c in index:
        if not (never[0] <= p <= never[1]) and (c not in used or c in last):
            used[c] = p
    drops = [[] for _ in range(rows)]
    dec, enc = [[] for _ in range(rows)], [[] for _ in range(rows)]
    for p, c in index:
        dec[p // width].append(c)
        if used.get(c) == p:
            enc[p // width].append(c)
        else:
            drops[p // width].append((p, c, used.get(c, 0)))
    pieces = {}
    for name, kind, text, table in (('decodeIn', 'decode_in', False, dec), ('decodeOut', 'decode_out', True, dec),
                                    ('encodeIn', 'encode_in', True, enc), ('encodeOut', 'encode_out', False, enc)):
        path = f'tests/test_data/whatwg/{base}_whatwg_test_{kind}.txt'
        data = open(R + path, 'rb').read()
        pos = 2 * nascii + (1 if text and nascii == 128 else 0)
        out = [data[:pos]]
        for r in table:
            n = sum(len(chr(c).encode()) + 1 for c in r) if text else 3 * len(r)
            out.append(data[pos:pos + n])
            pos += n
        out.append(data[pos:])
        assert b''.join(out) == data and out[-1].count(b'\n') == npairs
        pieces[name] = (path, out)
    imports, chk = '', ''
    code = {'ShiftJis': 'jisK', 'Big5': 'big5K'}[lean]
    for n, k in enumerate(range(0, rows, per), 1):
        t = f'import Verif.Hex\n\n/-! Generated by tools/gen_files.py: verbatim copies of parts of files of /repo. -/\n\nnamespace Verif.Files.{lean}\n'
        p = f'''import Verif.Files.{lean}.TestData{n}
import Verif.Proof.DataChecks
import Verif.Spec.Published.{pub}

/-! Generated by tools/gen_files.py: the kernel compares the copies with the index. -/

namespace Verif.Generator.{lean}

open Spec.Published.{pub}
'''
        for i in range(k, min(k + per, rows)):
            d = '[' + ', '.join(f'({a}, {b}, {c})' for a, b, c in drops[i]) + ']'
            p += f'\n/-- The lines of row {i} that are not used for encoding. -/\ndef drops{i} : List (Nat × Nat × Nat) := {d}\n'
            p += f'\ntheorem drops{i}_check : everyB ({"jisDropB" if lean == "ShiftJis" else "big5DropB"} rows) drops{i} = true := by decide +kernel\n'
            for name, (path, out) in pieces.items():
                t += f'\n/-- {path}, part {i + 1} -/\nnoncomputable def {name}{i} : List Nat := hex! {hexa(out[i + 1])}\n'
                f = 'utf8K' if name in ('decodeOut', 'encodeIn') else code
                r = f'row{i}' if name.startswith('decode') else f'(keepK row{i} drops{i})'
                p += f'\ntheorem {name}{i} : eqB (rowK {f} {r}) Files.{lean}.{name}{i} = true := by decide +kernel\n'
        write(f'Files/{lean}/TestData{n}.lean', t + f'\nend Verif.Files.{lean}\n')
        write(f'Proof/Files/{lean}TestData{n}.lean', p + f'\nend Verif.Generator.{lean}\n')
        imports += f'import Verif.Files.{lean}.TestData{n}\n'
        chk += f'import Verif.Proof.Files.{lean}TestData{n}\n'
    t = imports + f'''import Verif.Model.TestData

/-! Generated by tools/gen_files.py: the test data of {lean}. -/

namespace Verif.Files.{lean}
'''
    for name, (path, out) in pieces.items():
        t += f'''
/-- {path}, part 0 -/
noncomputable def {name}Ascii : List Nat := hex! {hexa(out[0])}

/-- {path}, part {rows + 1} -/
noncomputable def {name}Pairs : List Nat := hex! {hexa(out[-1])}

/-- The parts of {path} but the first and the last one -/
noncomputable def {name}Parts : List (List Nat) :=
  [{', '.join(f'{name}{i}' for i in range(rows))}]
'''
    file = lambda n: f'({n}Ascii ++ {n}Parts.flatten ++ {n}Pairs).map UInt8.ofNat'
    t += f'''
/-- The files tests/test_data/whatwg/{base}_whatwg_test_*.txt -/
noncomputable def testData : Generator.TestData where
  decode_in := {file('decodeIn')}
  decode_out := {file('decodeOut')}
  encode_in := {file('encodeIn')}
  encode_out := {file('encodeOut')}

end Verif.Files.{lean}
'''
    write(f'Files/{lean}TestData.lean', t)
    t = chk + f'''import Verif.Files.{lean}TestData

/-! Generated by tools/gen_files.py: the checks of the parts put together. -/

namespace Verif.Generator.{lean}

open Spec.Published.{pub}

/-- The rows of the index, less the lines not used for encoding. -/
noncomputable def kept : List (List (Nat × Nat)) :=
  [{', '.join(f'keepK row{i} drops{i}' for i in range(rows))}]

theorem kept_rows : Kept ({"jisDropB" if lean == "ShiftJis" else "big5DropB"} rows) rows kept :=
  {''.join(f'.cons drops{i} drops{i}_check <|' + chr(10) + '  ' for i in range(rows))}.nil
'''
    for name in pieces:
        f = 'utf8K' if name in ('decodeOut', 'encodeIn') else code
        r = 'rows' if name.startswith('decode') else 'kept'
        t += f'''
theorem {name}_parts : DataParts {f} {r} Files.{lean}.{name}Parts :=
  {''.join(f'.cons {name}{i} <|' + chr(10) + '  ' for i in range(rows))}.nil
'''
    write(f'Proof/Files/{lean}TestData.lean', t + f'\nend Verif.Generator.{lean}\n')

test_data('ShiftJis', 'shiftjis', 'jis0208', 'Jis0208', 188, 128, 0, [], (8272, 8835), 30)
test_data('Big5', 'big5', 'big5', 'Big5', 157, 127, 4,
          [0x2550, 0x255E, 0x2561, 0x256A, 0x5341, 0x5345], (-1, -1), 32)
