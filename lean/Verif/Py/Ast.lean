import Verif.Py.Syntax

/-! Generated by tools/pyast.lean.txt: the syntax trees of the generators. -/

namespace Verif.Py.Ast

/-- A loop body in `generate_ascii_ext_encoding`.  encoding_tables/single_byte/generate_ascii_ext_tables.py -/
def ascii_ext.generate_ascii_ext_encoding.loop1 : Stmt :=
  (.seq (.assign "parts" (.method (.name "line") "split" []))
  (.seq
    (.ite
      (.and
        (.cmp .ge (.call "len" [(.name "parts")]) (.int 2))
        (.not (.method (.index (.name "parts") (.int 0)) "startswith" [(.str (text! "#"))])))
      (.seq (.assign "byte" (.call "int" [(.index (.name "parts") (.int 0)), (.int 16)]))
      (.seq
        (.ite
          (.method (.index (.name "parts") (.int 1)) "startswith" [(.str (text! "#"))])
          (.seq .continue
          .skip)
          .skip)
      (.seq (.assign "unicode" (.call "int" [(.index (.name "parts") (.int 1)), (.int 16)]))
      (.seq (.augAdd "table" (.list [(.tuple [(.name "byte"), (.name "unicode")])]))
      .skip))))
      .skip)
  .skip))

/-- A loop body in `generate_ascii_ext_encoding`.  encoding_tables/single_byte/generate_ascii_ext_tables.py -/
def ascii_ext.generate_ascii_ext_encoding.loop2 : Stmt :=
  (.seq
    (.ite
      (.or
        (.cmp .ne (.index (.index (.name "table") (.name "i")) (.int 0)) (.name "i"))
        (.cmp .ne (.index (.index (.name "table") (.name "i")) (.int 1)) (.name "i")))
      (.seq
        (.raise
          (.call
            "Exception"
            [(.method
               (.str (text! "Not an ascii extension: file {}, codepoint {}"))
               "format"
               [(.name "in_path"), (.name "i")])]))
      .skip)
      .skip)
  .skip)

/-- A loop body in `generate_ascii_ext_encoding`.  encoding_tables/single_byte/generate_ascii_ext_tables.py -/
def ascii_ext.generate_ascii_ext_encoding.loop3 : Stmt :=
  (.seq (.augAdd "dec_table" (.list [.none]))
  (.seq (.augAdd "i" (.int 1))
  .skip))

/-- A loop body in `generate_ascii_ext_encoding`.  encoding_tables/single_byte/generate_ascii_ext_tables.py -/
def ascii_ext.generate_ascii_ext_encoding.loop4 : Stmt :=
  (.seq
    (.whileDo
      (.cmp .lt (.name "i") (.bin .sub (.index (.name "item") (.int 0)) (.int 128)))
      ascii_ext.generate_ascii_ext_encoding.loop3)
  (.seq (.augAdd "dec_table" (.list [(.index (.name "item") (.int 1))]))
  (.seq (.augAdd "i" (.int 1))
  .skip)))

/-- A loop body in `generate_ascii_ext_encoding`.  encoding_tables/single_byte/generate_ascii_ext_tables.py -/
def ascii_ext.generate_ascii_ext_encoding.loop5 : Stmt :=
  (.seq (.augAdd "dec_table" (.list [.none]))
  .skip)

/-- A loop body in `generate_ascii_ext_encoding`.  encoding_tables/single_byte/generate_ascii_ext_tables.py -/
def ascii_ext.generate_ascii_ext_encoding.loop6 : Stmt :=
  (.seq
    (.ite
      (.not (.cmp .in_ (.index (.name "item") (.int 1)) (.name "seen")))
      (.seq (.augAnd "seen" (.set [(.index (.name "item") (.int 1))]))
      (.seq
        (.augAdd
          "enc_table"
          (.list [(.tuple [(.index (.name "item") (.int 1)), (.index (.name "item") (.int 0))])]))
      .skip))
      .skip)
  .skip)

/-- A loop body in `generate_ascii_ext_encoding`.  encoding_tables/single_byte/generate_ascii_ext_tables.py -/
def ascii_ext.generate_ascii_ext_encoding.loop7 : Stmt :=
  (.seq
    (.ite
      (.cmp .eq (.bin .mod (.name "i") (.int 8)) (.int 0))
      (.seq (.expr (.method (.name "out_file") "write" [(.str (text! "\n    "))]))
      .skip)
      .skip)
  (.seq
    (.ite
      (.cmp .is_ (.name "c") .none)
      (.seq (.expr (.method (.name "out_file") "write" [(.str (text! "'�',"))]))
      .skip)
      (.seq
        (.expr
          (.method
            (.name "out_file")
            "write"
            [(.method (.str (text! "'\\u{{{:04X}}}',")) "format" [(.name "c")])]))
      .skip))
  .skip))

/-- A loop body in `generate_ascii_ext_encoding`.  encoding_tables/single_byte/generate_ascii_ext_tables.py -/
def ascii_ext.generate_ascii_ext_encoding.loop8 : Stmt :=
  (.seq
    (.ite
      (.cmp .eq (.bin .mod (.name "i") (.int 4)) (.int 0))
      (.seq (.expr (.method (.name "out_file") "write" [(.str (text! "\n    "))]))
      .skip)
      .skip)
  (.seq
    (.expr
      (.method
        (.name "out_file")
        "write"
        [(.method
           (.str (text! "('\\u{{{:04X}}}', 0x{:02X}), "))
           "format"
           [(.index (.name "pair") (.int 0)), (.index (.name "pair") (.int 1))])]))
  .skip))

/-- The body of `generate_ascii_ext_encoding`.  encoding_tables/single_byte/generate_ascii_ext_tables.py -/
def ascii_ext.generate_ascii_ext_encoding.body : Stmt :=
  (.seq (.assign "in_file" (.call "open" [(.name "in_path")]))
  (.seq
    (.assign "out_file" (.call "open" [(.name "out_path"), (.keyword "mode" (.str (text! "w")))]))
  (.seq (.assign "table" (.list []))
  (.seq (.forIn (.name "line") (.name "in_file") ascii_ext.generate_ascii_ext_encoding.loop1)
  (.seq (.expr (.method (.name "table") "sort" []))
  (.seq
    (.forIn
      (.name "i")
      (.call "range" [(.int 0), (.int 128)])
      ascii_ext.generate_ascii_ext_encoding.loop2)
  (.seq (.assign "table" (.sliceFrom (.name "table") (.int 128)))
  (.seq (.assign "dec_table" (.list []))
  (.seq (.assign "i" (.int 0))
  (.seq (.forIn (.name "item") (.name "table") ascii_ext.generate_ascii_ext_encoding.loop4)
  (.seq
    (.whileDo
      (.cmp .lt (.call "len" [(.name "dec_table")]) (.int 128))
      ascii_ext.generate_ascii_ext_encoding.loop5)
  (.seq (.assign "enc_table" (.list []))
  (.seq (.assign "seen" (.call "set" []))
  (.seq (.forIn (.name "item") (.name "table") ascii_ext.generate_ascii_ext_encoding.loop6)
  (.seq (.expr (.method (.name "enc_table") "sort" []))
  (.seq
    (.expr
      (.method
        (.name "out_file")
        "write"
        [(.str
           (text! "// This file is auto-generated.  Please see `encoding_tables/single_byte/`\n// from the root directory for the files that generate this.\n\nuse {DecodeResult, EncodeResult};\n\npub fn decode_to_str<'a>(\n    input: &[u8],\n    out_buffer: &'a mut [u8],\n) -> DecodeResult<'a> {\n    super::ascii_ext_decode_to_str(&DECODE_TABLE, input, out_buffer)\n}\n\npub fn encode_from_str<'a>(\n    input: &str,\n    out_buffer: &'a mut [u8],\n) -> EncodeResult<'a> {\n    super::ascii_ext_encode_from_str(&ENCODE_TABLE, input, out_buffer)\n}\n\n"))]))
  (.seq
    (.expr
      (.method (.name "out_file") "write" [(.str (text! "const DECODE_TABLE: [char; 128] = ["))]))
  (.seq
    (.forIn
      (.names ["i", "c"])
      (.call "enumerate" [(.name "dec_table")])
      ascii_ext.generate_ascii_ext_encoding.loop7)
  (.seq (.expr (.method (.name "out_file") "write" [(.str (text! "\n];\n\n"))]))
  (.seq
    (.expr
      (.method
        (.name "out_file")
        "write"
        [(.method
           (.str (text! "const ENCODE_TABLE: [(char, u8); {}] = ["))
           "format"
           [(.call "len" [(.name "enc_table")])])]))
  (.seq
    (.forIn
      (.names ["i", "pair"])
      (.call "enumerate" [(.name "enc_table")])
      ascii_ext.generate_ascii_ext_encoding.loop8)
  (.seq (.expr (.method (.name "out_file") "write" [(.str (text! "\n];\n"))]))
  .skip))))))))))))))))))))))

/-- `generate_ascii_ext_encoding`.  encoding_tables/single_byte/generate_ascii_ext_tables.py -/
def ascii_ext.generate_ascii_ext_encoding : Fn := ⟨"generate_ascii_ext_encoding", ["in_path", "out_path"], ascii_ext.generate_ascii_ext_encoding.body⟩

/-- The statements after the functions.  encoding_tables/single_byte/generate_ascii_ext_tables.py -/
def ascii_ext.main : Stmt :=
  (.seq
    (.ite
      (.cmp .eq (.name "__name__") (.str (text! "__main__")))
      (.seq (.assign "root" (.str (text! "../../src/generated/single_byte")))
      (.seq
        (.expr
          (.call
            "generate_ascii_ext_encoding"
            [(.str (text! "ascii_ext/ibm-cp866.txt")),
             (.bin .add (.name "root") (.str (text! "/ibm-cp866_tables.rs.inc")))]))
      (.seq
        (.expr
          (.call
            "generate_ascii_ext_encoding"
            [(.str (text! "ascii_ext/iso-8859-1.txt")),
             (.bin .add (.name "root") (.str (text! "/iso-8859-1_tables.rs.inc")))]))
      (.seq
        (.expr
          (.call
            "generate_ascii_ext_encoding"
            [(.str (text! "ascii_ext/iso-8859-2.txt")),
             (.bin .add (.name "root") (.str (text! "/iso-8859-2_tables.rs.inc")))]))
      (.seq
        (.expr
          (.call
            "generate_ascii_ext_encoding"
            [(.str (text! "ascii_ext/iso-8859-3.txt")),
             (.bin .add (.name "root") (.str (text! "/iso-8859-3_tables.rs.inc")))]))
      (.seq
        (.expr
          (.call
            "generate_ascii_ext_encoding"
            [(.str (text! "ascii_ext/iso-8859-4.txt")),
             (.bin .add (.name "root") (.str (text! "/iso-8859-4_tables.rs.inc")))]))
      (.seq
        (.expr
          (.call
            "generate_ascii_ext_encoding"
            [(.str (text! "ascii_ext/iso-8859-5.txt")),
             (.bin .add (.name "root") (.str (text! "/iso-8859-5_tables.rs.inc")))]))
      (.seq
        (.expr
          (.call
            "generate_ascii_ext_encoding"
            [(.str (text! "ascii_ext/iso-8859-6.txt")),
             (.bin .add (.name "root") (.str (text! "/iso-8859-6_tables.rs.inc")))]))
      (.seq
        (.expr
          (.call
            "generate_ascii_ext_encoding"
            [(.str (text! "ascii_ext/iso-8859-7.txt")),
             (.bin .add (.name "root") (.str (text! "/iso-8859-7_tables.rs.inc")))]))
      (.seq
        (.expr
          (.call
            "generate_ascii_ext_encoding"
            [(.str (text! "ascii_ext/iso-8859-8.txt")),
             (.bin .add (.name "root") (.str (text! "/iso-8859-8_tables.rs.inc")))]))
      (.seq
        (.expr
          (.call
            "generate_ascii_ext_encoding"
            [(.str (text! "ascii_ext/iso-8859-9.txt")),
             (.bin .add (.name "root") (.str (text! "/iso-8859-9_tables.rs.inc")))]))
      (.seq
        (.expr
          (.call
            "generate_ascii_ext_encoding"
            [(.str (text! "ascii_ext/iso-8859-10.txt")),
             (.bin .add (.name "root") (.str (text! "/iso-8859-10_tables.rs.inc")))]))
      (.seq
        (.expr
          (.call
            "generate_ascii_ext_encoding"
            [(.str (text! "ascii_ext/iso-8859-11.txt")),
             (.bin .add (.name "root") (.str (text! "/iso-8859-11_tables.rs.inc")))]))
      (.seq
        (.expr
          (.call
            "generate_ascii_ext_encoding"
            [(.str (text! "ascii_ext/iso-8859-13.txt")),
             (.bin .add (.name "root") (.str (text! "/iso-8859-13_tables.rs.inc")))]))
      (.seq
        (.expr
          (.call
            "generate_ascii_ext_encoding"
            [(.str (text! "ascii_ext/iso-8859-14.txt")),
             (.bin .add (.name "root") (.str (text! "/iso-8859-14_tables.rs.inc")))]))
      (.seq
        (.expr
          (.call
            "generate_ascii_ext_encoding"
            [(.str (text! "ascii_ext/iso-8859-15.txt")),
             (.bin .add (.name "root") (.str (text! "/iso-8859-15_tables.rs.inc")))]))
      (.seq
        (.expr
          (.call
            "generate_ascii_ext_encoding"
            [(.str (text! "ascii_ext/iso-8859-16.txt")),
             (.bin .add (.name "root") (.str (text! "/iso-8859-16_tables.rs.inc")))]))
      (.seq
        (.expr
          (.call
            "generate_ascii_ext_encoding"
            [(.str (text! "ascii_ext/koi8-r.txt")),
             (.bin .add (.name "root") (.str (text! "/koi8-r_tables.rs.inc")))]))
      (.seq
        (.expr
          (.call
            "generate_ascii_ext_encoding"
            [(.str (text! "ascii_ext/koi8-u.txt")),
             (.bin .add (.name "root") (.str (text! "/koi8-u_tables.rs.inc")))]))
      (.seq
        (.expr
          (.call
            "generate_ascii_ext_encoding"
            [(.str (text! "ascii_ext/mac-roman.txt")),
             (.bin .add (.name "root") (.str (text! "/mac-roman_tables.rs.inc")))]))
      (.seq
        (.expr
          (.call
            "generate_ascii_ext_encoding"
            [(.str (text! "ascii_ext/mac-cyrillic.txt")),
             (.bin .add (.name "root") (.str (text! "/mac-cyrillic_tables.rs.inc")))]))
      (.seq
        (.expr
          (.call
            "generate_ascii_ext_encoding"
            [(.str (text! "ascii_ext/windows-cp874.txt")),
             (.bin .add (.name "root") (.str (text! "/windows-cp874_tables.rs.inc")))]))
      (.seq
        (.expr
          (.call
            "generate_ascii_ext_encoding"
            [(.str (text! "ascii_ext/windows-cp1250.txt")),
             (.bin .add (.name "root") (.str (text! "/windows-cp1250_tables.rs.inc")))]))
      (.seq
        (.expr
          (.call
            "generate_ascii_ext_encoding"
            [(.str (text! "ascii_ext/windows-cp1251.txt")),
             (.bin .add (.name "root") (.str (text! "/windows-cp1251_tables.rs.inc")))]))
      (.seq
        (.expr
          (.call
            "generate_ascii_ext_encoding"
            [(.str (text! "ascii_ext/windows-cp1252.txt")),
             (.bin .add (.name "root") (.str (text! "/windows-cp1252_tables.rs.inc")))]))
      (.seq
        (.expr
          (.call
            "generate_ascii_ext_encoding"
            [(.str (text! "ascii_ext/windows-cp1253.txt")),
             (.bin .add (.name "root") (.str (text! "/windows-cp1253_tables.rs.inc")))]))
      (.seq
        (.expr
          (.call
            "generate_ascii_ext_encoding"
            [(.str (text! "ascii_ext/windows-cp1254.txt")),
             (.bin .add (.name "root") (.str (text! "/windows-cp1254_tables.rs.inc")))]))
      (.seq
        (.expr
          (.call
            "generate_ascii_ext_encoding"
            [(.str (text! "ascii_ext/windows-cp1255.txt")),
             (.bin .add (.name "root") (.str (text! "/windows-cp1255_tables.rs.inc")))]))
      (.seq
        (.expr
          (.call
            "generate_ascii_ext_encoding"
            [(.str (text! "ascii_ext/windows-cp1256.txt")),
             (.bin .add (.name "root") (.str (text! "/windows-cp1256_tables.rs.inc")))]))
      (.seq
        (.expr
          (.call
            "generate_ascii_ext_encoding"
            [(.str (text! "ascii_ext/windows-cp1257.txt")),
             (.bin .add (.name "root") (.str (text! "/windows-cp1257_tables.rs.inc")))]))
      (.seq
        (.expr
          (.call
            "generate_ascii_ext_encoding"
            [(.str (text! "ascii_ext/windows-cp1258.txt")),
             (.bin .add (.name "root") (.str (text! "/windows-cp1258_tables.rs.inc")))]))
      .skip)))))))))))))))))))))))))))))))
      .skip)
  .skip)

/-- encoding_tables/single_byte/generate_ascii_ext_tables.py -/
def ascii_ext : Module :=
  ⟨[ascii_ext.generate_ascii_ext_encoding],
    ascii_ext.main⟩

/-- The body of `index_to_bytes`.  encoding_tables/whatwg/generate_shiftjis.py -/
def shiftjis.index_to_bytes.body : Stmt :=
  (.seq (.expr (.str (text! " Map the WHATWG index back to the original ShiftJIS bytes.\n    ")))
  (.seq (.assign "lead" (.bin .floordiv (.name "i") (.int 188)))
  (.seq (.assign "lead_offset" (.ite (.cmp .lt (.name "lead") (.int 31)) (.int 129) (.int 193)))
  (.seq (.assign "trail" (.bin .mod (.name "i") (.int 188)))
  (.seq (.assign "trail_offset" (.ite (.cmp .lt (.name "trail") (.int 63)) (.int 64) (.int 65)))
  (.seq
    (.return
      (.tuple
        [(.bin .add (.name "lead") (.name "lead_offset")),
         (.bin .add (.name "trail") (.name "trail_offset"))]))
  .skip))))))

/-- `index_to_bytes`.  encoding_tables/whatwg/generate_shiftjis.py -/
def shiftjis.index_to_bytes : Fn := ⟨"index_to_bytes", ["i"], shiftjis.index_to_bytes.body⟩

/-- The body of `bytes_to_index`.  encoding_tables/whatwg/generate_shiftjis.py -/
def shiftjis.bytes_to_index.body : Stmt :=
  (.seq (.expr (.str (text! " Map a pair of ShiftJIS bytes to the WHATWG index.\n    ")))
  (.seq (.assign "lead_offset" (.ite (.cmp .lt (.name "lead") (.int 160)) (.int 129) (.int 193)))
  (.seq (.assign "tail_offset" (.ite (.cmp .lt (.name "tail") (.int 127)) (.int 64) (.int 65)))
  (.seq
    (.return
      (.bin
        .sub
        (.bin
          .add
          (.bin .mul (.bin .sub (.name "lead") (.name "lead_offset")) (.int 188))
          (.name "tail"))
        (.name "tail_offset")))
  .skip))))

/-- `bytes_to_index`.  encoding_tables/whatwg/generate_shiftjis.py -/
def shiftjis.bytes_to_index : Fn := ⟨"bytes_to_index", ["lead", "tail"], shiftjis.bytes_to_index.body⟩

/-- A loop body in `deduped_table`.  encoding_tables/whatwg/generate_shiftjis.py -/
def shiftjis.deduped_table.loop1 : Stmt :=
  (.seq
    (.ite
      (.cmp .notIn (.name "codepoint") (.name "seen"))
      (.seq (.expr (.method (.name "seen") "add" [(.name "codepoint")]))
      (.seq (.augAdd "new_table" (.list [(.tuple [(.name "index"), (.name "codepoint")])]))
      .skip))
      .skip)
  .skip)

/-- The body of `deduped_table`.  encoding_tables/whatwg/generate_shiftjis.py -/
def shiftjis.deduped_table.body : Stmt :=
  (.seq
    (.expr
      (.str
        (text! " De-deplicate the codepoint entries in the from-disk table according to\n        WHATWG specs.\n    ")))
  (.seq
    (.assign
      "tmp_table_1"
      (.comp
        (.tuple [(.name "i"), (.name "c")])
        (.names ["i", "c"])
        (.name "table")
        (some (.or (.cmp .lt (.name "i") (.int 8272)) (.cmp .gt (.name "i") (.int 8835))))))
  (.seq (.assign "new_table" (.list []))
  (.seq (.assign "seen" (.call "set" []))
  (.seq (.forIn (.names ["index", "codepoint"]) (.name "tmp_table_1") shiftjis.deduped_table.loop1)
  (.seq (.return (.name "new_table"))
  .skip))))))

/-- `deduped_table`.  encoding_tables/whatwg/generate_shiftjis.py -/
def shiftjis.deduped_table : Fn := ⟨"deduped_table", ["table"], shiftjis.deduped_table.body⟩

/-- A loop body in `load_table_file`.  encoding_tables/whatwg/generate_shiftjis.py -/
def shiftjis.load_table_file.loop1 : Stmt :=
  (.seq (.assign "parts" (.method (.name "line") "split" []))
  (.seq
    (.ite
      (.and
        (.cmp .ge (.call "len" [(.name "parts")]) (.int 2))
        (.not (.method (.index (.name "parts") (.int 0)) "startswith" [(.str (text! "#"))])))
      (.seq (.assign "byte" (.call "int" [(.index (.name "parts") (.int 0))]))
      (.seq (.assign "unicode" (.call "int" [(.index (.name "parts") (.int 1)), (.int 16)]))
      (.seq (.augAdd "table" (.list [(.tuple [(.name "byte"), (.name "unicode")])]))
      .skip)))
      .skip)
  .skip))

/-- The body of `load_table_file`.  encoding_tables/whatwg/generate_shiftjis.py -/
def shiftjis.load_table_file.body : Stmt :=
  (.seq (.assign "in_file" (.call "open" [(.name "path")]))
  (.seq (.assign "table" (.list []))
  (.seq (.forIn (.name "line") (.name "in_file") shiftjis.load_table_file.loop1)
  (.seq (.expr (.method (.name "table") "sort" []))
  (.seq (.return (.name "table"))
  .skip)))))

/-- `load_table_file`.  encoding_tables/whatwg/generate_shiftjis.py -/
def shiftjis.load_table_file : Fn := ⟨"load_table_file", ["path"], shiftjis.load_table_file.body⟩

/-- A loop body in `generate_shiftjis_tables`.  encoding_tables/whatwg/generate_shiftjis.py -/
def shiftjis.generate_shiftjis_tables.loop1 : Stmt :=
  (.seq (.augAdd "dec_table" (.list [.none]))
  (.seq (.augAdd "i" (.int 1))
  .skip))

/-- A loop body in `generate_shiftjis_tables`.  encoding_tables/whatwg/generate_shiftjis.py -/
def shiftjis.generate_shiftjis_tables.loop2 : Stmt :=
  (.seq (.whileDo (.cmp .lt (.name "i") (.name "index")) shiftjis.generate_shiftjis_tables.loop1)
  (.seq (.augAdd "dec_table" (.list [(.name "codepoint")]))
  (.seq (.augAdd "i" (.int 1))
  .skip)))

/-- A loop body in `generate_shiftjis_tables`.  encoding_tables/whatwg/generate_shiftjis.py -/
def shiftjis.generate_shiftjis_tables.loop3 : Stmt :=
  (.seq
    (.ite
      (.cmp .eq (.bin .mod (.name "i") (.int 8)) (.int 0))
      (.seq (.expr (.method (.name "out_file") "write" [(.str (text! "\n    "))]))
      .skip)
      .skip)
  (.seq
    (.ite
      (.cmp .is_ (.name "c") .none)
      (.seq (.expr (.method (.name "out_file") "write" [(.str (text! "'�',"))]))
      .skip)
      (.seq
        (.expr
          (.method
            (.name "out_file")
            "write"
            [(.method (.str (text! "'\\u{{{:04X}}}',")) "format" [(.name "c")])]))
      .skip))
  .skip))

/-- A loop body in `generate_shiftjis_tables`.  encoding_tables/whatwg/generate_shiftjis.py -/
def shiftjis.generate_shiftjis_tables.loop4 : Stmt :=
  (.seq
    (.ite
      (.cmp .eq (.bin .mod (.name "i") (.int 3)) (.int 0))
      (.seq (.expr (.method (.name "out_file") "write" [(.str (text! "\n    "))]))
      .skip)
      .skip)
  (.seq
    (.expr
      (.method
        (.name "out_file")
        "write"
        [(.method
           (.str (text! "('\\u{{{:X}}}', [0x{:X}, 0x{:X}]), "))
           "format"
           [(.index (.name "pair") (.int 0)),
            (.index (.index (.name "pair") (.int 1)) (.int 0)),
            (.index (.index (.name "pair") (.int 1)) (.int 1))])]))
  .skip))

/-- The body of `generate_shiftjis_tables`.  encoding_tables/whatwg/generate_shiftjis.py -/
def shiftjis.generate_shiftjis_tables.body : Stmt :=
  (.seq (.assign "table" (.call "load_table_file" [(.name "in_path")]))
  (.seq (.assign "dec_table" (.list []))
  (.seq (.assign "i" (.int 0))
  (.seq
    (.forIn (.names ["index", "codepoint"]) (.name "table") shiftjis.generate_shiftjis_tables.loop2)
  (.seq
    (.assign
      "enc_table"
      (.comp
        (.tuple [(.name "codepoint"), (.call "index_to_bytes" [(.name "index")])])
        (.names ["index", "codepoint"])
        (.call "deduped_table" [(.name "table")])
        none))
  (.seq (.expr (.method (.name "enc_table") "sort" []))
  (.seq
    (.assign "out_file" (.call "open" [(.name "out_path"), (.keyword "mode" (.str (text! "w")))]))
  (.seq
    (.expr
      (.method
        (.name "out_file")
        "write"
        [(.str
           (text! "// This file is auto-generated.  Please see `encoding_tables/whatwg/`\n// from the root directory for the files that generate this.\n\n"))]))
  (.seq
    (.expr
      (.method
        (.name "out_file")
        "write"
        [(.method
           (.str (text! "const DECODE_TABLE: [char; {}] = ["))
           "format"
           [(.call "len" [(.name "dec_table")])])]))
  (.seq
    (.forIn
      (.names ["i", "c"])
      (.call "enumerate" [(.name "dec_table")])
      shiftjis.generate_shiftjis_tables.loop3)
  (.seq (.expr (.method (.name "out_file") "write" [(.str (text! "\n];\n\n"))]))
  (.seq
    (.expr
      (.method
        (.name "out_file")
        "write"
        [(.method
           (.str (text! "const ENCODE_TABLE: [(char, [u8; 2]); {}] = ["))
           "format"
           [(.call "len" [(.name "enc_table")])])]))
  (.seq
    (.forIn
      (.names ["i", "pair"])
      (.call "enumerate" [(.name "enc_table")])
      shiftjis.generate_shiftjis_tables.loop4)
  (.seq (.expr (.method (.name "out_file") "write" [(.str (text! "\n];\n"))]))
  .skip))))))))))))))

/-- `generate_shiftjis_tables`.  encoding_tables/whatwg/generate_shiftjis.py -/
def shiftjis.generate_shiftjis_tables : Fn := ⟨"generate_shiftjis_tables", ["in_path", "out_path"], shiftjis.generate_shiftjis_tables.body⟩

/-- A loop body in `generate_shiftjis_test_data`.  encoding_tables/whatwg/generate_shiftjis.py -/
def shiftjis.generate_shiftjis_test_data.loop1 : Stmt :=
  (.seq
    (.expr
      (.method (.name "decode_in_file") "write" [(.call "bytes" [(.list [(.name "ascii_byte")])])]))
  (.seq
    (.expr
      (.method
        (.name "decode_in_file")
        "write"
        [(.call "bytes" [(.str (text! "\n")), (.str (text! "utf-8"))])]))
  (.seq
    (.expr
      (.method
        (.name "decode_out_file")
        "write"
        [(.method (.call "chr" [(.name "ascii_byte")]) "encode" [(.str (text! "utf-8"))])]))
  (.seq
    (.expr
      (.method
        (.name "decode_out_file")
        "write"
        [(.call "bytes" [(.str (text! "\n")), (.str (text! "utf-8"))])]))
  .skip))))

/-- A loop body in `generate_shiftjis_test_data`.  encoding_tables/whatwg/generate_shiftjis.py -/
def shiftjis.generate_shiftjis_test_data.loop2 : Stmt :=
  (.seq
    (.expr
      (.method
        (.name "decode_in_file")
        "write"
        [(.call "bytes" [(.call "index_to_bytes" [(.name "index")])])]))
  (.seq
    (.expr
      (.method
        (.name "decode_in_file")
        "write"
        [(.call "bytes" [(.str (text! "\n")), (.str (text! "utf-8"))])]))
  (.seq
    (.expr
      (.method
        (.name "decode_out_file")
        "write"
        [(.method (.call "chr" [(.name "codepoint")]) "encode" [(.str (text! "utf-8"))])]))
  (.seq
    (.expr
      (.method
        (.name "decode_out_file")
        "write"
        [(.call "bytes" [(.str (text! "\n")), (.str (text! "utf-8"))])]))
  .skip))))

/-- A loop body in `generate_shiftjis_test_data`.  encoding_tables/whatwg/generate_shiftjis.py -/
def shiftjis.generate_shiftjis_test_data.loop3 : Stmt :=
  (.seq
    (.expr
      (.method
        (.name "encode_in_file")
        "write"
        [(.method (.call "chr" [(.name "ascii_byte")]) "encode" [(.str (text! "utf-8"))])]))
  (.seq
    (.expr
      (.method
        (.name "encode_in_file")
        "write"
        [(.call "bytes" [(.str (text! "\n")), (.str (text! "utf-8"))])]))
  (.seq
    (.expr
      (.method
        (.name "encode_out_file")
        "write"
        [(.call "bytes" [(.list [(.name "ascii_byte")])])]))
  (.seq
    (.expr
      (.method
        (.name "encode_out_file")
        "write"
        [(.call "bytes" [(.str (text! "\n")), (.str (text! "utf-8"))])]))
  .skip))))

/-- A loop body in `generate_shiftjis_test_data`.  encoding_tables/whatwg/generate_shiftjis.py -/
def shiftjis.generate_shiftjis_test_data.loop4 : Stmt :=
  (.seq
    (.expr
      (.method
        (.name "encode_in_file")
        "write"
        [(.method (.call "chr" [(.name "codepoint")]) "encode" [(.str (text! "utf-8"))])]))
  (.seq
    (.expr
      (.method
        (.name "encode_in_file")
        "write"
        [(.call "bytes" [(.str (text! "\n")), (.str (text! "utf-8"))])]))
  (.seq
    (.expr
      (.method
        (.name "encode_out_file")
        "write"
        [(.call "bytes" [(.call "index_to_bytes" [(.name "index")])])]))
  (.seq
    (.expr
      (.method
        (.name "encode_out_file")
        "write"
        [(.call "bytes" [(.str (text! "\n")), (.str (text! "utf-8"))])]))
  .skip))))

/-- The body of `generate_shiftjis_test_data`.  encoding_tables/whatwg/generate_shiftjis.py -/
def shiftjis.generate_shiftjis_test_data.body : Stmt :=
  (.seq (.assign "table" (.call "load_table_file" [(.name "in_path")]))
  (.seq (.assign "decode_in_file" (.call "open" [(.name "dec_in_path"), (.str (text! "wb"))]))
  (.seq (.assign "decode_out_file" (.call "open" [(.name "dec_out_path"), (.str (text! "wb"))]))
  (.seq
    (.forIn
      (.name "ascii_byte")
      (.call "range" [(.int 1), (.int 129)])
      shiftjis.generate_shiftjis_test_data.loop1)
  (.seq
    (.forIn
      (.names ["index", "codepoint"])
      (.name "table")
      shiftjis.generate_shiftjis_test_data.loop2)
  (.seq (.assign "encode_in_file" (.call "open" [(.name "enc_in_path"), (.str (text! "wb"))]))
  (.seq (.assign "encode_out_file" (.call "open" [(.name "enc_out_path"), (.str (text! "wb"))]))
  (.seq
    (.forIn
      (.name "ascii_byte")
      (.call "range" [(.int 1), (.int 129)])
      shiftjis.generate_shiftjis_test_data.loop3)
  (.seq
    (.forIn
      (.names ["index", "codepoint"])
      (.call "deduped_table" [(.name "table")])
      shiftjis.generate_shiftjis_test_data.loop4)
  .skip)))))))))

/-- `generate_shiftjis_test_data`.  encoding_tables/whatwg/generate_shiftjis.py -/
def shiftjis.generate_shiftjis_test_data : Fn := ⟨"generate_shiftjis_test_data", ["in_path", "dec_in_path", "dec_out_path", "enc_in_path", "enc_out_path"], shiftjis.generate_shiftjis_test_data.body⟩

/-- The statements after the functions.  encoding_tables/whatwg/generate_shiftjis.py -/
def shiftjis.main : Stmt :=
  (.seq
    (.ite
      (.cmp .eq (.name "__name__") (.str (text! "__main__")))
      (.seq (.assign "table_root" (.str (text! "../../src/generated/whatwg")))
      (.seq (.assign "test_root" (.str (text! "../../tests/test_data/whatwg")))
      (.seq
        (.expr
          (.call
            "generate_shiftjis_tables"
            [(.str (text! "index-jis0208.txt")),
             (.bin .add (.name "table_root") (.str (text! "/shiftjis_whatwg_tables.rs.inc")))]))
      (.seq
        (.expr
          (.call
            "generate_shiftjis_test_data"
            [(.str (text! "index-jis0208.txt")),
             (.bin .add (.name "test_root") (.str (text! "/shiftjis_whatwg_test_decode_in.txt"))),
             (.bin .add (.name "test_root") (.str (text! "/shiftjis_whatwg_test_decode_out.txt"))),
             (.bin .add (.name "test_root") (.str (text! "/shiftjis_whatwg_test_encode_in.txt"))),
             (.bin
               .add
               (.name "test_root")
               (.str (text! "/shiftjis_whatwg_test_encode_out.txt")))]))
      .skip))))
      .skip)
  .skip)

/-- encoding_tables/whatwg/generate_shiftjis.py -/
def shiftjis : Module :=
  ⟨[shiftjis.index_to_bytes,
    shiftjis.bytes_to_index,
    shiftjis.deduped_table,
    shiftjis.load_table_file,
    shiftjis.generate_shiftjis_tables,
    shiftjis.generate_shiftjis_test_data],
    shiftjis.main⟩

/-- The body of `index_to_bytes`.  encoding_tables/whatwg/generate_big5.py -/
def big5.index_to_bytes.body : Stmt :=
  (.seq (.expr (.str (text! " Map the WHATWG index back to the original BIG5 bytes.\n    ")))
  (.seq (.assign "lead" (.bin .add (.bin .floordiv (.name "i") (.int 157)) (.int 129)))
  (.seq (.assign "trail" (.bin .mod (.name "i") (.int 157)))
  (.seq (.assign "offset" (.ite (.cmp .lt (.name "trail") (.int 63)) (.int 64) (.int 98)))
  (.seq (.return (.tuple [(.name "lead"), (.bin .add (.name "trail") (.name "offset"))]))
  .skip)))))

/-- `index_to_bytes`.  encoding_tables/whatwg/generate_big5.py -/
def big5.index_to_bytes : Fn := ⟨"index_to_bytes", ["i"], big5.index_to_bytes.body⟩

/-- The body of `bytes_to_index`.  encoding_tables/whatwg/generate_big5.py -/
def big5.bytes_to_index.body : Stmt :=
  (.seq (.expr (.str (text! " Map a pair of BIG5 bytes to the WHATWG index.\n    ")))
  (.seq (.assign "offset" (.ite (.cmp .lt (.name "tail") (.int 127)) (.int 64) (.int 98)))
  (.seq
    (.return
      (.bin
        .add
        (.bin .mul (.bin .sub (.name "lead") (.int 129)) (.int 157))
        (.bin .sub (.name "tail") (.name "offset"))))
  .skip)))

/-- `bytes_to_index`.  encoding_tables/whatwg/generate_big5.py -/
def big5.bytes_to_index : Fn := ⟨"bytes_to_index", ["lead", "tail"], big5.bytes_to_index.body⟩

/-- A loop body in `deduped_table`.  encoding_tables/whatwg/generate_big5.py -/
def big5.deduped_table.loop1 : Stmt :=
  (.seq
    (.ite
      (.cmp .notIn (.name "codepoint") (.name "seen"))
      (.seq
        (.ite
          (.cmp
            .in_
            (.name "codepoint")
            (.list
              [(.int 9552), (.int 9566), (.int 9569), (.int 9578), (.int 21313), (.int 21317)]))
          (.seq (.expr (.method (.name "seen") "add" [(.name "codepoint")]))
          .skip)
          .skip)
      (.seq (.augAdd "tmp_table_2" (.list [(.tuple [(.name "index"), (.name "codepoint")])]))
      .skip))
      .skip)
  .skip)

/-- A loop body in `deduped_table`.  encoding_tables/whatwg/generate_big5.py -/
def big5.deduped_table.loop2 : Stmt :=
  (.seq
    (.ite
      (.cmp .notIn (.name "codepoint") (.name "seen"))
      (.seq (.expr (.method (.name "seen") "add" [(.name "codepoint")]))
      (.seq (.augAdd "new_table" (.list [(.tuple [(.name "index"), (.name "codepoint")])]))
      .skip))
      .skip)
  .skip)

/-- The body of `deduped_table`.  encoding_tables/whatwg/generate_big5.py -/
def big5.deduped_table.body : Stmt :=
  (.seq
    (.expr
      (.str
        (text! " De-deplicate the codepoint entries in the from-disk table according to\n        WHATWG specs.\n    ")))
  (.seq (.assign "tmp_table_1" (.comp (.name "x") (.name "x") (.name "table") none))
  (.seq (.expr (.method (.name "tmp_table_1") "reverse" []))
  (.seq (.assign "tmp_table_2" (.list []))
  (.seq (.assign "seen" (.call "set" []))
  (.seq (.forIn (.names ["index", "codepoint"]) (.name "tmp_table_1") big5.deduped_table.loop1)
  (.seq (.expr (.method (.name "tmp_table_2") "reverse" []))
  (.seq (.assign "new_table" (.list []))
  (.seq (.assign "seen" (.call "set" []))
  (.seq (.forIn (.names ["index", "codepoint"]) (.name "tmp_table_2") big5.deduped_table.loop2)
  (.seq (.return (.name "new_table"))
  .skip)))))))))))

/-- `deduped_table`.  encoding_tables/whatwg/generate_big5.py -/
def big5.deduped_table : Fn := ⟨"deduped_table", ["table"], big5.deduped_table.body⟩

/-- A loop body in `load_table_file`.  encoding_tables/whatwg/generate_big5.py -/
def big5.load_table_file.loop1 : Stmt :=
  (.seq (.assign "parts" (.method (.name "line") "split" []))
  (.seq
    (.ite
      (.and
        (.cmp .ge (.call "len" [(.name "parts")]) (.int 2))
        (.not (.method (.index (.name "parts") (.int 0)) "startswith" [(.str (text! "#"))])))
      (.seq (.assign "byte" (.call "int" [(.index (.name "parts") (.int 0))]))
      (.seq (.assign "unicode" (.call "int" [(.index (.name "parts") (.int 1)), (.int 16)]))
      (.seq (.augAdd "table" (.list [(.tuple [(.name "byte"), (.name "unicode")])]))
      .skip)))
      .skip)
  .skip))

/-- The body of `load_table_file`.  encoding_tables/whatwg/generate_big5.py -/
def big5.load_table_file.body : Stmt :=
  (.seq (.assign "in_file" (.call "open" [(.name "path")]))
  (.seq (.assign "table" (.list []))
  (.seq (.forIn (.name "line") (.name "in_file") big5.load_table_file.loop1)
  (.seq (.expr (.method (.name "table") "sort" []))
  (.seq (.return (.name "table"))
  .skip)))))

/-- `load_table_file`.  encoding_tables/whatwg/generate_big5.py -/
def big5.load_table_file : Fn := ⟨"load_table_file", ["path"], big5.load_table_file.body⟩

/-- A loop body in `generate_big5_tables`.  encoding_tables/whatwg/generate_big5.py -/
def big5.generate_big5_tables.loop1 : Stmt :=
  (.seq (.augAdd "dec_table" (.list [.none]))
  (.seq (.augAdd "i" (.int 1))
  .skip))

/-- A loop body in `generate_big5_tables`.  encoding_tables/whatwg/generate_big5.py -/
def big5.generate_big5_tables.loop2 : Stmt :=
  (.seq (.whileDo (.cmp .lt (.name "i") (.name "index")) big5.generate_big5_tables.loop1)
  (.seq (.augAdd "dec_table" (.list [(.name "codepoint")]))
  (.seq (.augAdd "i" (.int 1))
  .skip)))

/-- A loop body in `generate_big5_tables`.  encoding_tables/whatwg/generate_big5.py -/
def big5.generate_big5_tables.loop3 : Stmt :=
  (.seq
    (.ite
      (.cmp .eq (.bin .mod (.name "i") (.int 8)) (.int 0))
      (.seq (.expr (.method (.name "out_file") "write" [(.str (text! "\n    "))]))
      .skip)
      .skip)
  (.seq
    (.ite
      (.cmp .is_ (.name "c") .none)
      (.seq (.expr (.method (.name "out_file") "write" [(.str (text! "'�',"))]))
      .skip)
      (.seq
        (.expr
          (.method
            (.name "out_file")
            "write"
            [(.method (.str (text! "'\\u{{{:04X}}}',")) "format" [(.name "c")])]))
      .skip))
  .skip))

/-- A loop body in `generate_big5_tables`.  encoding_tables/whatwg/generate_big5.py -/
def big5.generate_big5_tables.loop4 : Stmt :=
  (.seq
    (.ite
      (.cmp .eq (.bin .mod (.name "i") (.int 3)) (.int 0))
      (.seq (.expr (.method (.name "out_file") "write" [(.str (text! "\n    "))]))
      .skip)
      .skip)
  (.seq
    (.expr
      (.method
        (.name "out_file")
        "write"
        [(.method
           (.str (text! "('\\u{{{:X}}}', [0x{:X}, 0x{:X}]), "))
           "format"
           [(.index (.name "pair") (.int 0)),
            (.index (.index (.name "pair") (.int 1)) (.int 0)),
            (.index (.index (.name "pair") (.int 1)) (.int 1))])]))
  .skip))

/-- The body of `generate_big5_tables`.  encoding_tables/whatwg/generate_big5.py -/
def big5.generate_big5_tables.body : Stmt :=
  (.seq (.assign "table" (.call "load_table_file" [(.name "in_path")]))
  (.seq (.assign "dec_table" (.list []))
  (.seq (.assign "i" (.int 0))
  (.seq (.forIn (.names ["index", "codepoint"]) (.name "table") big5.generate_big5_tables.loop2)
  (.seq
    (.assign
      "enc_table"
      (.comp
        (.tuple [(.name "codepoint"), (.call "index_to_bytes" [(.name "index")])])
        (.names ["index", "codepoint"])
        (.call "deduped_table" [(.name "table")])
        none))
  (.seq (.expr (.method (.name "enc_table") "sort" []))
  (.seq
    (.assign "out_file" (.call "open" [(.name "out_path"), (.keyword "mode" (.str (text! "w")))]))
  (.seq
    (.expr
      (.method
        (.name "out_file")
        "write"
        [(.str
           (text! "// This file is auto-generated.  Please see `encoding_tables/whatwg/`\n// from the root directory for the files that generate this.\n\n"))]))
  (.seq
    (.expr
      (.method
        (.name "out_file")
        "write"
        [(.method
           (.str (text! "const DECODE_TABLE: [char; {}] = ["))
           "format"
           [(.call "len" [(.name "dec_table")])])]))
  (.seq
    (.forIn
      (.names ["i", "c"])
      (.call "enumerate" [(.name "dec_table")])
      big5.generate_big5_tables.loop3)
  (.seq (.expr (.method (.name "out_file") "write" [(.str (text! "\n];\n\n"))]))
  (.seq
    (.expr
      (.method
        (.name "out_file")
        "write"
        [(.method
           (.str (text! "const ENCODE_TABLE: [(char, [u8; 2]); {}] = ["))
           "format"
           [(.call "len" [(.name "enc_table")])])]))
  (.seq
    (.forIn
      (.names ["i", "pair"])
      (.call "enumerate" [(.name "enc_table")])
      big5.generate_big5_tables.loop4)
  (.seq (.expr (.method (.name "out_file") "write" [(.str (text! "\n];\n"))]))
  .skip))))))))))))))

/-- `generate_big5_tables`.  encoding_tables/whatwg/generate_big5.py -/
def big5.generate_big5_tables : Fn := ⟨"generate_big5_tables", ["in_path", "out_path"], big5.generate_big5_tables.body⟩

/-- A loop body in `generate_big5_test_data`.  encoding_tables/whatwg/generate_big5.py -/
def big5.generate_big5_test_data.loop1 : Stmt :=
  (.seq
    (.expr
      (.method (.name "decode_in_file") "write" [(.call "bytes" [(.list [(.name "ascii_byte")])])]))
  (.seq
    (.expr
      (.method
        (.name "decode_in_file")
        "write"
        [(.call "bytes" [(.str (text! "\n")), (.str (text! "utf-8"))])]))
  (.seq
    (.expr
      (.method
        (.name "decode_out_file")
        "write"
        [(.call "bytes" [(.list [(.name "ascii_byte")])])]))
  (.seq
    (.expr
      (.method
        (.name "decode_out_file")
        "write"
        [(.call "bytes" [(.str (text! "\n")), (.str (text! "utf-8"))])]))
  .skip))))

/-- A loop body in `generate_big5_test_data`.  encoding_tables/whatwg/generate_big5.py -/
def big5.generate_big5_test_data.loop2 : Stmt :=
  (.seq
    (.expr
      (.method
        (.name "decode_in_file")
        "write"
        [(.call "bytes" [(.call "index_to_bytes" [(.name "index")])])]))
  (.seq
    (.expr
      (.method
        (.name "decode_in_file")
        "write"
        [(.call "bytes" [(.str (text! "\n")), (.str (text! "utf-8"))])]))
  (.seq
    (.expr
      (.method
        (.name "decode_out_file")
        "write"
        [(.method (.call "chr" [(.name "codepoint")]) "encode" [(.str (text! "utf-8"))])]))
  (.seq
    (.expr
      (.method
        (.name "decode_out_file")
        "write"
        [(.call "bytes" [(.str (text! "\n")), (.str (text! "utf-8"))])]))
  .skip))))

/-- A loop body in `generate_big5_test_data`.  encoding_tables/whatwg/generate_big5.py -/
def big5.generate_big5_test_data.loop3 : Stmt :=
  (.seq
    (.expr
      (.method
        (.name "decode_in_file")
        "write"
        [(.call "bytes" [(.call "index_to_bytes" [(.name "index")])])]))
  (.seq
    (.expr
      (.method
        (.name "decode_in_file")
        "write"
        [(.call "bytes" [(.str (text! "\n")), (.str (text! "utf-8"))])]))
  (.seq
    (.expr
      (.method
        (.name "decode_out_file")
        "write"
        [(.method
           (.call "chr" [(.index (.name "codepoints") (.int 0))])
           "encode"
           [(.str (text! "utf-8"))])]))
  (.seq
    (.expr
      (.method
        (.name "decode_out_file")
        "write"
        [(.method
           (.call "chr" [(.index (.name "codepoints") (.int 1))])
           "encode"
           [(.str (text! "utf-8"))])]))
  (.seq
    (.expr
      (.method
        (.name "decode_out_file")
        "write"
        [(.call "bytes" [(.str (text! "\n")), (.str (text! "utf-8"))])]))
  .skip)))))

/-- A loop body in `generate_big5_test_data`.  encoding_tables/whatwg/generate_big5.py -/
def big5.generate_big5_test_data.loop4 : Stmt :=
  (.seq
    (.expr
      (.method (.name "encode_in_file") "write" [(.call "bytes" [(.list [(.name "ascii_byte")])])]))
  (.seq
    (.expr
      (.method
        (.name "encode_in_file")
        "write"
        [(.call "bytes" [(.str (text! "\n")), (.str (text! "utf-8"))])]))
  (.seq
    (.expr
      (.method
        (.name "encode_out_file")
        "write"
        [(.call "bytes" [(.list [(.name "ascii_byte")])])]))
  (.seq
    (.expr
      (.method
        (.name "encode_out_file")
        "write"
        [(.call "bytes" [(.str (text! "\n")), (.str (text! "utf-8"))])]))
  .skip))))

/-- A loop body in `generate_big5_test_data`.  encoding_tables/whatwg/generate_big5.py -/
def big5.generate_big5_test_data.loop5 : Stmt :=
  (.seq
    (.expr
      (.method
        (.name "encode_in_file")
        "write"
        [(.method (.call "chr" [(.name "codepoint")]) "encode" [(.str (text! "utf-8"))])]))
  (.seq
    (.expr
      (.method
        (.name "encode_in_file")
        "write"
        [(.call "bytes" [(.str (text! "\n")), (.str (text! "utf-8"))])]))
  (.seq
    (.expr
      (.method
        (.name "encode_out_file")
        "write"
        [(.call "bytes" [(.call "index_to_bytes" [(.name "index")])])]))
  (.seq
    (.expr
      (.method
        (.name "encode_out_file")
        "write"
        [(.call "bytes" [(.str (text! "\n")), (.str (text! "utf-8"))])]))
  .skip))))

/-- A loop body in `generate_big5_test_data`.  encoding_tables/whatwg/generate_big5.py -/
def big5.generate_big5_test_data.loop6 : Stmt :=
  (.seq
    (.expr
      (.method
        (.name "encode_in_file")
        "write"
        [(.method
           (.call "chr" [(.index (.name "codepoints") (.int 0))])
           "encode"
           [(.str (text! "utf-8"))])]))
  (.seq
    (.expr
      (.method
        (.name "encode_in_file")
        "write"
        [(.method
           (.call "chr" [(.index (.name "codepoints") (.int 1))])
           "encode"
           [(.str (text! "utf-8"))])]))
  (.seq
    (.expr
      (.method
        (.name "encode_in_file")
        "write"
        [(.call "bytes" [(.str (text! "\n")), (.str (text! "utf-8"))])]))
  (.seq
    (.expr
      (.method
        (.name "encode_out_file")
        "write"
        [(.call "bytes" [(.call "index_to_bytes" [(.name "index")])])]))
  (.seq
    (.expr
      (.method
        (.name "encode_out_file")
        "write"
        [(.call "bytes" [(.str (text! "\n")), (.str (text! "utf-8"))])]))
  .skip)))))

/-- The body of `generate_big5_test_data`.  encoding_tables/whatwg/generate_big5.py -/
def big5.generate_big5_test_data.body : Stmt :=
  (.seq (.assign "table" (.call "load_table_file" [(.name "in_path")]))
  (.seq (.assign "decode_in_file" (.call "open" [(.name "dec_in_path"), (.str (text! "wb"))]))
  (.seq (.assign "decode_out_file" (.call "open" [(.name "dec_out_path"), (.str (text! "wb"))]))
  (.seq
    (.forIn
      (.name "ascii_byte")
      (.call "range" [(.int 1), (.int 128)])
      big5.generate_big5_test_data.loop1)
  (.seq (.forIn (.names ["index", "codepoint"]) (.name "table") big5.generate_big5_test_data.loop2)
  (.seq
    (.forIn
      (.names ["index", "codepoints"])
      (.list
        [(.tuple [(.int 1133), (.tuple [(.int 202), (.int 772)])]),
         (.tuple [(.int 1135), (.tuple [(.int 202), (.int 780)])]),
         (.tuple [(.int 1164), (.tuple [(.int 234), (.int 772)])]),
         (.tuple [(.int 1166), (.tuple [(.int 234), (.int 780)])])])
      big5.generate_big5_test_data.loop3)
  (.seq (.assign "encode_in_file" (.call "open" [(.name "enc_in_path"), (.str (text! "wb"))]))
  (.seq (.assign "encode_out_file" (.call "open" [(.name "enc_out_path"), (.str (text! "wb"))]))
  (.seq
    (.forIn
      (.name "ascii_byte")
      (.call "range" [(.int 1), (.int 128)])
      big5.generate_big5_test_data.loop4)
  (.seq
    (.forIn
      (.names ["index", "codepoint"])
      (.call "deduped_table" [(.name "table")])
      big5.generate_big5_test_data.loop5)
  (.seq
    (.forIn
      (.names ["index", "codepoints"])
      (.list
        [(.tuple [(.int 1133), (.tuple [(.int 202), (.int 772)])]),
         (.tuple [(.int 1135), (.tuple [(.int 202), (.int 780)])]),
         (.tuple [(.int 1164), (.tuple [(.int 234), (.int 772)])]),
         (.tuple [(.int 1166), (.tuple [(.int 234), (.int 780)])])])
      big5.generate_big5_test_data.loop6)
  .skip)))))))))))

/-- `generate_big5_test_data`.  encoding_tables/whatwg/generate_big5.py -/
def big5.generate_big5_test_data : Fn := ⟨"generate_big5_test_data", ["in_path", "dec_in_path", "dec_out_path", "enc_in_path", "enc_out_path"], big5.generate_big5_test_data.body⟩

/-- The statements after the functions.  encoding_tables/whatwg/generate_big5.py -/
def big5.main : Stmt :=
  (.seq
    (.ite
      (.cmp .eq (.name "__name__") (.str (text! "__main__")))
      (.seq (.assign "table_root" (.str (text! "../../src/generated/whatwg")))
      (.seq (.assign "test_root" (.str (text! "../../tests/test_data/whatwg")))
      (.seq
        (.expr
          (.call
            "generate_big5_tables"
            [(.str (text! "index-big5.txt")),
             (.bin .add (.name "table_root") (.str (text! "/big5_whatwg_tables.rs.inc")))]))
      (.seq
        (.expr
          (.call
            "generate_big5_test_data"
            [(.str (text! "index-big5.txt")),
             (.bin .add (.name "test_root") (.str (text! "/big5_whatwg_test_decode_in.txt"))),
             (.bin .add (.name "test_root") (.str (text! "/big5_whatwg_test_decode_out.txt"))),
             (.bin .add (.name "test_root") (.str (text! "/big5_whatwg_test_encode_in.txt"))),
             (.bin .add (.name "test_root") (.str (text! "/big5_whatwg_test_encode_out.txt")))]))
      .skip))))
      .skip)
  .skip)

/-- encoding_tables/whatwg/generate_big5.py -/
def big5 : Module :=
  ⟨[big5.index_to_bytes,
    big5.bytes_to_index,
    big5.deduped_table,
    big5.load_table_file,
    big5.generate_big5_tables,
    big5.generate_big5_test_data],
    big5.main⟩

end Verif.Py.Ast
