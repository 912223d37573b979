#!/usr/bin/env python3
"""Copies the hand-written sources, /repo/src/*.rs, examples/*.rs and tests/*.rs, verbatim into Lean
string literals.

-> lean/Verif/Files/Src.lean, lean/Verif/Files/TestSrc.lean
"""
import os
R = '/repo/'
OUTT = os.path.join(os.path.dirname(os.path.abspath(__file__)), '../lean/Verif/Files/TestSrc.lean')
OUT = os.path.join(os.path.dirname(os.path.abspath(__file__)), '../lean/Verif/Files/Src.lean')
names = ['lib', 'utf8', 'utf16_be', 'utf16_le', 'utf32_be', 'utf32_le', 'shiftjis_whatwg',
         'big5_whatwg', 'single_byte']
t = '''import Verif.Text

/-! Generated by tools/gen_src.py: verbatim copies of files of /repo. -/

namespace Verif.Files.Src
'''
for m in names:
    a = open(R + f'src/{m}.rs', 'rb').read().decode('utf-8')
    assert '\r' not in a and '"##' not in a and a.endswith('\n')
    n = a.count('\n')
    t += f'''
/-- src/{m}.rs:1-{n} -/
def {m} : List Text := lines! r##"{a}"##
'''
a = open(R + 'examples/wrapper.rs', 'rb').read().decode('utf-8')
assert '\r' not in a and '"##' not in a and a.endswith('\n')
n = a.count('\n')
t += f'''
/-- examples/wrapper.rs:1-{n} -/
def wrapper : List Text := lines! r##"{a}"##
'''
open(OUT, 'w', encoding='utf-8').write(t + '\nend Verif.Files.Src\n')

t = '''import Verif.Text

/-! Generated by tools/gen_src.py: verbatim copies of files of /repo. -/

namespace Verif.Files.TestSrc
'''
for m in ['property_tests', 'shiftjis', 'big5']:
    a = open(R + f'tests/{m}.rs', 'rb').read().decode('utf-8')
    assert '\r' not in a and '"##' not in a and a.endswith('\n')
    n = a.count('\n')
    t += f'''
/-- tests/{m}.rs:1-{n} -/
def {m} : List Text := lines! r##"{a}"##
'''
open(OUTT, 'w', encoding='utf-8').write(t + '\nend Verif.Files.TestSrc\n')
