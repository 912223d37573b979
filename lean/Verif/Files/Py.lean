import Verif.Text

/-! Generated by tools/gen_py.py: verbatim copies of files of /repo. -/

namespace Verif.Files.Py

/-- encoding_tables/single_byte/generate_ascii_ext_tables.py:1-217 -/
def ascii_ext : List Text := lines! r##"#!/usr/bin/env python3

def generate_ascii_ext_encoding(in_path, out_path):
    in_file = open(in_path)
    out_file = open(out_path, mode='w')

    # Load the table from the file.
    table = []
    for line in in_file:
        parts = line.split()
        if len(parts) >= 2 and not parts[0].startswith("#"):
            byte = int(parts[0], 16)
            if parts[1].startswith("#"):
                continue
            unicode = int(parts[1], 16)
            table += [(byte, unicode)]
    table.sort()

    # Verify that it is indeed an ascii extension (i.e. all bytes <= 127
    # should exist and map 1-to-1 to the unicode codepoints with the same
    # value.
    for i in range(0, 128):
        if table[i][0] != i or table[i][1] != i:
            raise Exception("Not an ascii extension: file {}, codepoint {}".format(in_path, i))


    # Truncate to just the non-ascii entries.
    table = table[128:]

    # Create the decode table
    dec_table = []
    i = 0
    for item in table:
        while i < (item[0] - 128):
            dec_table += [None]
            i += 1
        dec_table += [item[1]]
        i += 1
    while len(dec_table) < 128:
        dec_table += [None]

    # Create the encode table
    enc_table = []
    seen = set()  # Used to eliminate duplicate code points.
    for item in table:
        if not item[1] in seen:
            seen &= {item[1]}
            enc_table += [(item[1], item[0])]
    enc_table.sort()

    # Write out shared code.
    out_file.write(
"""// This file is auto-generated.  Please see `encoding_tables/single_byte/`
// from the root directory for the files that generate this.

use {DecodeResult, EncodeResult};

pub fn decode_to_str<'a>(
    input: &[u8],
    out_buffer: &'a mut [u8],
) -> DecodeResult<'a> {
    super::ascii_ext_decode_to_str(&DECODE_TABLE, input, out_buffer)
}

pub fn encode_from_str<'a>(
    input: &str,
    out_buffer: &'a mut [u8],
) -> EncodeResult<'a> {
    super::ascii_ext_encode_from_str(&ENCODE_TABLE, input, out_buffer)
}\n
"""
    )

    # Write out decode table
    out_file.write("const DECODE_TABLE: [char; 128] = [")
    for (i, c) in enumerate(dec_table):
        if i % 8 == 0:
            out_file.write("\n    ")
        if c is None:
            out_file.write("'�',")
        else:
            out_file.write("'\\u{{{:04X}}}',".format(c))
    out_file.write("\n];\n\n")

    # Write out encode table
    out_file.write("const ENCODE_TABLE: [(char, u8); {}] = [".format(len(enc_table)))
    for (i, pair) in enumerate(enc_table):
        if i % 4 == 0:
            out_file.write("\n    ")
        out_file.write("('\\u{{{:04X}}}', 0x{:02X}), ".format(pair[0], pair[1]))
    out_file.write("\n];\n")


if __name__ == "__main__":
    root = "../../src/generated/single_byte"

    # Generate the table files.
    generate_ascii_ext_encoding(
        "ascii_ext/ibm-cp866.txt",
        root + "/ibm-cp866_tables.rs.inc",
    )
    generate_ascii_ext_encoding(
        "ascii_ext/iso-8859-1.txt",
        root + "/iso-8859-1_tables.rs.inc",
    )
    generate_ascii_ext_encoding(
        "ascii_ext/iso-8859-2.txt",
        root + "/iso-8859-2_tables.rs.inc",
    )
    generate_ascii_ext_encoding(
        "ascii_ext/iso-8859-3.txt",
        root + "/iso-8859-3_tables.rs.inc",
    )
    generate_ascii_ext_encoding(
        "ascii_ext/iso-8859-4.txt",
        root + "/iso-8859-4_tables.rs.inc",
    )
    generate_ascii_ext_encoding(
        "ascii_ext/iso-8859-5.txt",
        root + "/iso-8859-5_tables.rs.inc",
    )
    generate_ascii_ext_encoding(
        "ascii_ext/iso-8859-6.txt",
        root + "/iso-8859-6_tables.rs.inc",
    )
    generate_ascii_ext_encoding(
        "ascii_ext/iso-8859-7.txt",
        root + "/iso-8859-7_tables.rs.inc",
    )
    generate_ascii_ext_encoding(
        "ascii_ext/iso-8859-8.txt",
        root + "/iso-8859-8_tables.rs.inc",
    )
    generate_ascii_ext_encoding(
        "ascii_ext/iso-8859-9.txt",
        root + "/iso-8859-9_tables.rs.inc",
    )
    generate_ascii_ext_encoding(
        "ascii_ext/iso-8859-10.txt",
        root + "/iso-8859-10_tables.rs.inc",
    )
    generate_ascii_ext_encoding(
        "ascii_ext/iso-8859-11.txt",
        root + "/iso-8859-11_tables.rs.inc",
    )
    generate_ascii_ext_encoding(
        "ascii_ext/iso-8859-13.txt",
        root + "/iso-8859-13_tables.rs.inc",
    )
    generate_ascii_ext_encoding(
        "ascii_ext/iso-8859-14.txt",
        root + "/iso-8859-14_tables.rs.inc",
    )
    generate_ascii_ext_encoding(
        "ascii_ext/iso-8859-15.txt",
        root + "/iso-8859-15_tables.rs.inc",
    )
    generate_ascii_ext_encoding(
        "ascii_ext/iso-8859-16.txt",
        root + "/iso-8859-16_tables.rs.inc",
    )
    generate_ascii_ext_encoding(
        "ascii_ext/koi8-r.txt",
        root + "/koi8-r_tables.rs.inc",
    )
    generate_ascii_ext_encoding(
        "ascii_ext/koi8-u.txt",
        root + "/koi8-u_tables.rs.inc",
    )
    generate_ascii_ext_encoding(
        "ascii_ext/mac-roman.txt",
        root + "/mac-roman_tables.rs.inc",
    )
    generate_ascii_ext_encoding(
        "ascii_ext/mac-cyrillic.txt",
        root + "/mac-cyrillic_tables.rs.inc",
    )
    generate_ascii_ext_encoding(
        "ascii_ext/windows-cp874.txt",
        root + "/windows-cp874_tables.rs.inc",
    )
    generate_ascii_ext_encoding(
        "ascii_ext/windows-cp1250.txt",
        root + "/windows-cp1250_tables.rs.inc",
    )
    generate_ascii_ext_encoding(
        "ascii_ext/windows-cp1251.txt",
        root + "/windows-cp1251_tables.rs.inc",
    )
    generate_ascii_ext_encoding(
        "ascii_ext/windows-cp1252.txt",
        root + "/windows-cp1252_tables.rs.inc",
    )
    generate_ascii_ext_encoding(
        "ascii_ext/windows-cp1253.txt",
        root + "/windows-cp1253_tables.rs.inc",
    )
    generate_ascii_ext_encoding(
        "ascii_ext/windows-cp1254.txt",
        root + "/windows-cp1254_tables.rs.inc",
    )
    generate_ascii_ext_encoding(
        "ascii_ext/windows-cp1255.txt",
        root + "/windows-cp1255_tables.rs.inc",
    )
    generate_ascii_ext_encoding(
        "ascii_ext/windows-cp1256.txt",
        root + "/windows-cp1256_tables.rs.inc",
    )
    generate_ascii_ext_encoding(
        "ascii_ext/windows-cp1257.txt",
        root + "/windows-cp1257_tables.rs.inc",
    )
    generate_ascii_ext_encoding(
        "ascii_ext/windows-cp1258.txt",
        root + "/windows-cp1258_tables.rs.inc",
    )
"##

/-- encoding_tables/whatwg/generate_shiftjis.py:1-156 -/
def shiftjis : List Text := lines! r##"#!/usr/bin/env python3


def index_to_bytes(i):
    """ Map the WHATWG index back to the original ShiftJIS bytes.
    """
    lead = i // 188;
    lead_offset = 0x81 if lead < 0x1F else 0xC1
    trail = i % 188
    trail_offset = 0x40 if trail < 0x3F else 0x41
    return (lead + lead_offset, trail + trail_offset)


def bytes_to_index(lead, tail):
    """ Map a pair of ShiftJIS bytes to the WHATWG index.
    """
    lead_offset = 0x81 if lead < 0xA0 else 0xC1
    tail_offset = 0x40 if tail < 0x7F else 0x41
    return (lead - lead_offset) * 188 + tail - tail_offset


def deduped_table(table):
    """ De-deplicate the codepoint entries in the from-disk table according to
        WHATWG specs.
    """
    # Remove all indices in [8272, 8835].
    tmp_table_1 = [(i, c) for (i, c) in table if i < 8272 or i > 8835]

    # For the rest, remove all duplicates except the first.
    new_table = []
    seen = set()
    for (index, codepoint) in tmp_table_1:
        if codepoint not in seen:
            seen.add(codepoint)
            new_table += [(index, codepoint)]

    return new_table


def load_table_file(path):
    in_file = open(path)
    table = []
    for line in in_file:
        parts = line.split()
        if len(parts) >= 2 and not parts[0].startswith("#"):
            byte = int(parts[0])
            unicode = int(parts[1], 16)
            table += [(byte, unicode)]
    table.sort()
    return table


def generate_shiftjis_tables(in_path, out_path):
    table = load_table_file(in_path)

    # Create the decode table
    dec_table = []
    i = 0
    for (index, codepoint) in table:
        while i < index:
            dec_table += [None]
            i += 1
        dec_table += [codepoint]
        i += 1

    # Create the encode table
    enc_table = [(codepoint, index_to_bytes(index)) for (index, codepoint) in deduped_table(table)]
    enc_table.sort()

    # Write file.
    out_file = open(out_path, mode='w')
    out_file.write(
"""// This file is auto-generated.  Please see `encoding_tables/whatwg/`
// from the root directory for the files that generate this.

"""
    )

    # Write out decode table
    out_file.write("const DECODE_TABLE: [char; {}] = [".format(len(dec_table)))
    for (i, c) in enumerate(dec_table):
        if i % 8 == 0:
            out_file.write("\n    ")
        if c is None:
            out_file.write("'�',")
        else:
            out_file.write("'\\u{{{:04X}}}',".format(c))
    out_file.write("\n];\n\n")

    # Write out encode table
    out_file.write("const ENCODE_TABLE: [(char, [u8; 2]); {}] = [".format(len(enc_table)))
    for (i, pair) in enumerate(enc_table):
        if i % 3 == 0:
            out_file.write("\n    ")
        out_file.write("('\\u{{{:X}}}', [0x{:X}, 0x{:X}]), ".format(pair[0], pair[1][0], pair[1][1]))
    out_file.write("\n];\n")


def generate_shiftjis_test_data(in_path, dec_in_path, dec_out_path, enc_in_path, enc_out_path):
    table = load_table_file(in_path)

    # Generate decoding test files.
    decode_in_file = open(dec_in_path, "wb")
    decode_out_file = open(dec_out_path, "wb")
    for ascii_byte in range(1, 129):
        # In
        decode_in_file.write(bytes([ascii_byte]))
        decode_in_file.write(bytes("\n", 'utf-8'))
        # Out
        decode_out_file.write(chr(ascii_byte).encode('utf-8'))
        decode_out_file.write(bytes("\n", 'utf-8'))
    for (index, codepoint) in table:
        # In
        decode_in_file.write(bytes(index_to_bytes(index)))
        decode_in_file.write(bytes("\n", 'utf-8'))
        # Out
        decode_out_file.write(chr(codepoint).encode('utf-8'))
        decode_out_file.write(bytes("\n", 'utf-8'))

    # Generate encoding test files.
    encode_in_file = open(enc_in_path, "wb")
    encode_out_file = open(enc_out_path, "wb")
    for ascii_byte in range(1, 129):
        # In
        encode_in_file.write(chr(ascii_byte).encode('utf-8'))
        encode_in_file.write(bytes("\n", 'utf-8'))
        # Out
        encode_out_file.write(bytes([ascii_byte]))
        encode_out_file.write(bytes("\n", 'utf-8'))
    for (index, codepoint) in deduped_table(table):
        # In
        encode_in_file.write(chr(codepoint).encode('utf-8'))
        encode_in_file.write(bytes("\n", 'utf-8'))
        # Out
        encode_out_file.write(bytes(index_to_bytes(index)))
        encode_out_file.write(bytes("\n", 'utf-8'))


if __name__ == "__main__":
    table_root = "../../src/generated/whatwg"
    test_root = "../../tests/test_data/whatwg"

    # Generate the table files.
    generate_shiftjis_tables(
        "index-jis0208.txt",
        table_root + "/shiftjis_whatwg_tables.rs.inc",
    )

    # Generate the test data files.
    generate_shiftjis_test_data(
        "index-jis0208.txt",
        test_root + "/shiftjis_whatwg_test_decode_in.txt",
        test_root + "/shiftjis_whatwg_test_decode_out.txt",
        test_root + "/shiftjis_whatwg_test_encode_in.txt",
        test_root + "/shiftjis_whatwg_test_encode_out.txt",
    )
"##

/-- encoding_tables/whatwg/generate_big5.py:1-191 -/
def big5 : List Text := lines! r##"#!/usr/bin/env python3


def index_to_bytes(i):
    """ Map the WHATWG index back to the original BIG5 bytes.
    """
    lead = i // 157 + 0x81
    trail = i % 157
    offset = 0x40 if trail < 0x3f else 0x62
    return (lead, trail + offset)


def bytes_to_index(lead, tail):
    """ Map a pair of BIG5 bytes to the WHATWG index.
    """
    offset = 0x40 if tail < 0x7F else 0x62
    return (lead - 0x81) * 157 + (tail - offset)
    

def deduped_table(table):
    """ De-deplicate the codepoint entries in the from-disk table according to
        WHATWG specs.
    """
    tmp_table_1 = [x for x in table]

    # Remove all except the _last_ entries for code points U+2550, U+255E,
    # U+2561, U+256A, U+5341, and U+5345.
    tmp_table_1.reverse()
    tmp_table_2 = []
    seen = set()
    for (index, codepoint) in tmp_table_1:
        if codepoint not in seen:
            if codepoint in [0x2550, 0x255E, 0x2561, 0x256A, 0x5341, 0x5345]:
                seen.add(codepoint)
            tmp_table_2 += [(index, codepoint)]
    tmp_table_2.reverse()

    # For the rest, remove all except the _first_ entries.
    new_table = []
    seen = set()
    for (index, codepoint) in tmp_table_2:
        if codepoint not in seen:
            seen.add(codepoint)
            new_table += [(index, codepoint)]

    return new_table


def load_table_file(path):
    in_file = open(path)
    table = []
    for line in in_file:
        parts = line.split()
        if len(parts) >= 2 and not parts[0].startswith("#"):
            byte = int(parts[0])
            unicode = int(parts[1], 16)
            table += [(byte, unicode)]
    table.sort()
    return table


def generate_big5_tables(in_path, out_path):
    table = load_table_file(in_path)

    # Create the decode table
    dec_table = []
    i = 0
    for (index, codepoint) in table:
        while i < index:
            dec_table += [None]
            i += 1
        dec_table += [codepoint]
        i += 1

    # Create the encode table
    enc_table = [(codepoint, index_to_bytes(index)) for (index, codepoint) in deduped_table(table)]
    enc_table.sort()

    # Write file.
    out_file = open(out_path, mode='w')
    out_file.write(
"""// This file is auto-generated.  Please see `encoding_tables/whatwg/`
// from the root directory for the files that generate this.

"""
    )

    # Write out decode table
    out_file.write("const DECODE_TABLE: [char; {}] = [".format(len(dec_table)))
    for (i, c) in enumerate(dec_table):
        if i % 8 == 0:
            out_file.write("\n    ")
        if c is None:
            out_file.write("'�',")
        else:
            out_file.write("'\\u{{{:04X}}}',".format(c))
    out_file.write("\n];\n\n")

    # Write out encode table
    out_file.write("const ENCODE_TABLE: [(char, [u8; 2]); {}] = [".format(len(enc_table)))
    for (i, pair) in enumerate(enc_table):
        if i % 3 == 0:
            out_file.write("\n    ")
        out_file.write("('\\u{{{:X}}}', [0x{:X}, 0x{:X}]), ".format(pair[0], pair[1][0], pair[1][1]))
    out_file.write("\n];\n")


def generate_big5_test_data(in_path, dec_in_path, dec_out_path, enc_in_path, enc_out_path):
    table = load_table_file(in_path)

    # Generate decoding test files.
    decode_in_file = open(dec_in_path, "wb")
    decode_out_file = open(dec_out_path, "wb")
    for ascii_byte in range(1, 128):
        # In
        decode_in_file.write(bytes([ascii_byte]))
        decode_in_file.write(bytes("\n", 'utf-8'))
        # Out
        decode_out_file.write(bytes([ascii_byte]))
        decode_out_file.write(bytes("\n", 'utf-8'))
    for (index, codepoint) in table:
        # In
        decode_in_file.write(bytes(index_to_bytes(index)))
        decode_in_file.write(bytes("\n", 'utf-8'))
        # Out
        decode_out_file.write(chr(codepoint).encode('utf-8'))
        decode_out_file.write(bytes("\n", 'utf-8'))
    for (index, codepoints) in [
        (1133, (0xCA, 0x304)),
        (1135, (0xCA, 0x30C)),
        (1164, (0xEA, 0x304)),
        (1166, (0xEA, 0x30C)),
    ]:
        # In
        decode_in_file.write(bytes(index_to_bytes(index)))
        decode_in_file.write(bytes("\n", 'utf-8'))
        # Out
        decode_out_file.write(chr(codepoints[0]).encode('utf-8'))
        decode_out_file.write(chr(codepoints[1]).encode('utf-8'))
        decode_out_file.write(bytes("\n", 'utf-8'))

    # Generate encoding test files.
    encode_in_file = open(enc_in_path, "wb")
    encode_out_file = open(enc_out_path, "wb")
    for ascii_byte in range(1, 128):
        # In
        encode_in_file.write(bytes([ascii_byte]))
        encode_in_file.write(bytes("\n", 'utf-8'))
        # Out
        encode_out_file.write(bytes([ascii_byte]))
        encode_out_file.write(bytes("\n", 'utf-8'))
    for (index, codepoint) in deduped_table(table):
        # In
        encode_in_file.write(chr(codepoint).encode('utf-8'))
        encode_in_file.write(bytes("\n", 'utf-8'))
        # Out
        encode_out_file.write(bytes(index_to_bytes(index)))
        encode_out_file.write(bytes("\n", 'utf-8'))
    for (index, codepoints) in [
        (1133, (0xCA, 0x304)),
        (1135, (0xCA, 0x30C)),
        (1164, (0xEA, 0x304)),
        (1166, (0xEA, 0x30C)),
    ]:
        # In
        encode_in_file.write(chr(codepoints[0]).encode('utf-8'))
        encode_in_file.write(chr(codepoints[1]).encode('utf-8'))
        encode_in_file.write(bytes("\n", 'utf-8'))
        # Out
        encode_out_file.write(bytes(index_to_bytes(index)))
        encode_out_file.write(bytes("\n", 'utf-8'))


if __name__ == "__main__":
    table_root = "../../src/generated/whatwg"
    test_root = "../../tests/test_data/whatwg"

    # Generate the table files.
    generate_big5_tables(
        "index-big5.txt",
        table_root + "/big5_whatwg_tables.rs.inc",
    )

    # Generate the test data files.
    generate_big5_test_data(
        "index-big5.txt",
        test_root + "/big5_whatwg_test_decode_in.txt",
        test_root + "/big5_whatwg_test_decode_out.txt",
        test_root + "/big5_whatwg_test_encode_in.txt",
        test_root + "/big5_whatwg_test_encode_out.txt",
    )        
"##

end Verif.Files.Py
