#!/usr/bin/env python3
"""Copies the table generators, /repo/encoding_tables/*/*.py, verbatim into Lean string literals.

-> lean/Verif/Files/Py.lean
"""
import os
R = '/repo/'
OUT = os.path.join(os.path.dirname(os.path.abspath(__file__)), '../lean/Verif/Files/Py.lean')
files = [('ascii_ext', 'encoding_tables/single_byte/generate_ascii_ext_tables.py'),
         ('shiftjis', 'encoding_tables/whatwg/generate_shiftjis.py'),
         ('big5', 'encoding_tables/whatwg/generate_big5.py')]
t = '''import Verif.Text

/-! Generated by tools/gen_py.py: verbatim copies of files of /repo. -/

namespace Verif.Files.Py
'''
for name, path in files:
    a = open(R + path, 'rb').read().decode('utf-8')
    assert '\r' not in a and '"##' not in a and '\t' not in a
    n = a.count('\n')
    t += f'''
/-- {path}:1-{n} -/
def {name} : List Text := lines! r##"{a}"##
'''
open(OUT, 'w', encoding='utf-8').write(t + '\nend Verif.Files.Py\n')
