import Verif.Lang.Syntax

/-! Generated by tools/ast.lean.txt: the syntax trees of the sources. -/

namespace Verif.Lang.Ast

/-- A loop body in `pt_utf8_roundtrip`.  tests/property_tests.rs -/
def property_tests.pt_utf8_roundtrip.loop1 : Expr :=
  (.block
    (.iteLet
      (.ctor "Ok" [(.tuple [(.bind "encoded"), (.bind "n")])])
      (.callIn "utf8" "encode_from_str" [(.var "tmp"), (.refMut (.var "buf"))])
      (.block
        (.seq (.assign (.var "tmp") (.ref (.sliceFrom (.var "tmp") (.var "n"))))
        (.seq (.method (.var "utf8_encoded") .extend_from_slice [(.var "encoded")])
        .unit)))
      (.block (.seq .panic .unit))))

/-- A loop body in `pt_utf8_roundtrip`.  tests/property_tests.rs -/
def property_tests.pt_utf8_roundtrip.loop2 : Expr :=
  (.block
    (.iteLet
      (.ctor "Ok" [(.tuple [(.bind "decoded"), (.bind "n")])])
      (.callIn "utf8" "decode_to_str" [(.var "tmp"), (.refMut (.var "buf")), (.bool true)])
      (.block
        (.seq (.assign (.var "tmp") (.ref (.sliceFrom (.var "tmp") (.var "n"))))
        (.seq (.method (.var "utf8") .extend [(.method (.var "decoded") .chars [])])
        .unit)))
      (.block (.seq .panic .unit))))

/-- The body of `pt_utf8_roundtrip`.  tests/property_tests.rs -/
def property_tests.pt_utf8_roundtrip : Expr :=
  (.block
    (.letIn (.bind "buf") (.rep (.int .u8 0) 32)
    (.letIn (.bind "utf8_encoded") (.array [])
    (.letIn (.bind "utf8") (.str [])
    (.letIn (.bind "tmp") (.ref (.sliceAll (.var "text")))
    (.seq
      (.whileDo (.not (.method (.var "tmp") .is_empty [])) property_tests.pt_utf8_roundtrip.loop1)
    (.letIn (.bind "tmp") (.ref (.sliceAll (.var "utf8_encoded")))
    (.seq
      (.whileDo (.not (.method (.var "tmp") .is_empty [])) property_tests.pt_utf8_roundtrip.loop2)
    (.seq (.assertEq (.ref (.sliceAll (.var "text"))) (.ref (.sliceAll (.var "utf8"))))
    (.seq (.assertEq (.method (.var "text") .as_bytes []) (.ref (.sliceAll (.var "utf8_encoded"))))
    (.seq (.assertEq (.method (.var "utf8") .as_bytes []) (.ref (.sliceAll (.var "utf8_encoded"))))
    .unit)))))))))))

/-- The body of `pt_utf8_decode_random_bytes`.  tests/property_tests.rs -/
def property_tests.pt_utf8_decode_random_bytes : Expr :=
  (.block
    (.letIn (.bind "buf") (.vec (.int .u8 0) (.int .usize 4096))
    (.letIn .wild
      (.callIn "utf8" "decode_to_str" [(.var "data"), (.refMut (.var "buf")), (.bool false)])
    (.letIn .wild
      (.callIn "utf8" "decode_to_str" [(.var "data"), (.refMut (.var "buf")), (.bool true)])
    .unit))))

/-- The body of `pt_utf8_encode_random_text`.  tests/property_tests.rs -/
def property_tests.pt_utf8_encode_random_text : Expr :=
  (.block
    (.letIn (.bind "buf") (.vec (.int .u8 0) (.int .usize 4096))
    (.letIn .wild (.callIn "utf8" "encode_from_str" [(.var "text"), (.refMut (.var "buf"))])
    .unit)))

/-- A loop body in `pt_utf16be_roundtrip`.  tests/property_tests.rs -/
def property_tests.pt_utf16be_roundtrip.loop1 : Expr :=
  (.block
    (.iteLet
      (.ctor "Ok" [(.tuple [(.bind "encoded"), (.bind "n")])])
      (.callIn "utf16_be" "encode_from_str" [(.var "tmp"), (.refMut (.var "buf"))])
      (.block
        (.seq (.assign (.var "tmp") (.ref (.sliceFrom (.var "tmp") (.var "n"))))
        (.seq (.method (.var "utf16") .extend_from_slice [(.var "encoded")])
        .unit)))
      (.block (.seq .panic .unit))))

/-- A loop body in `pt_utf16be_roundtrip`.  tests/property_tests.rs -/
def property_tests.pt_utf16be_roundtrip.loop2 : Expr :=
  (.block
    (.iteLet
      (.ctor "Ok" [(.tuple [(.bind "decoded"), (.bind "n")])])
      (.callIn "utf16_be" "decode_to_str" [(.var "tmp"), (.refMut (.var "buf")), (.bool true)])
      (.block
        (.seq (.assign (.var "tmp") (.ref (.sliceFrom (.var "tmp") (.var "n"))))
        (.seq (.method (.var "utf8") .extend [(.method (.var "decoded") .chars [])])
        .unit)))
      (.block (.seq .panic .unit))))

/-- The body of `pt_utf16be_roundtrip`.  tests/property_tests.rs -/
def property_tests.pt_utf16be_roundtrip : Expr :=
  (.block
    (.letIn (.bind "buf") (.rep (.int .u8 0) 32)
    (.letIn (.bind "utf16") (.array [])
    (.letIn (.bind "utf8") (.str [])
    (.letIn (.bind "tmp") (.ref (.sliceAll (.var "text")))
    (.seq
      (.whileDo
        (.not (.method (.var "tmp") .is_empty []))
        property_tests.pt_utf16be_roundtrip.loop1)
    (.letIn (.bind "tmp") (.ref (.sliceAll (.var "utf16")))
    (.seq
      (.whileDo
        (.not (.method (.var "tmp") .is_empty []))
        property_tests.pt_utf16be_roundtrip.loop2)
    (.seq (.assertEq (.ref (.sliceAll (.var "text"))) (.ref (.sliceAll (.var "utf8"))))
    .unit)))))))))

/-- The body of `pt_utf16be_decode_random_bytes`.  tests/property_tests.rs -/
def property_tests.pt_utf16be_decode_random_bytes : Expr :=
  (.block
    (.letIn (.bind "buf") (.vec (.int .u8 0) (.int .usize 4096))
    (.letIn .wild
      (.callIn "utf16_be" "decode_to_str" [(.var "data"), (.refMut (.var "buf")), (.bool false)])
    (.letIn .wild
      (.callIn "utf16_be" "decode_to_str" [(.var "data"), (.refMut (.var "buf")), (.bool true)])
    .unit))))

/-- The body of `pt_utf16be_encode_random_text`.  tests/property_tests.rs -/
def property_tests.pt_utf16be_encode_random_text : Expr :=
  (.block
    (.letIn (.bind "buf") (.vec (.int .u8 0) (.int .usize 4096))
    (.letIn .wild (.callIn "utf16_be" "encode_from_str" [(.var "text"), (.refMut (.var "buf"))])
    .unit)))

/-- A loop body in `pt_utf16le_roundtrip`.  tests/property_tests.rs -/
def property_tests.pt_utf16le_roundtrip.loop1 : Expr :=
  (.block
    (.iteLet
      (.ctor "Ok" [(.tuple [(.bind "encoded"), (.bind "n")])])
      (.callIn "utf16_le" "encode_from_str" [(.var "tmp"), (.refMut (.var "buf"))])
      (.block
        (.seq (.assign (.var "tmp") (.ref (.sliceFrom (.var "tmp") (.var "n"))))
        (.seq (.method (.var "utf16") .extend_from_slice [(.var "encoded")])
        .unit)))
      (.block (.seq .panic .unit))))

/-- A loop body in `pt_utf16le_roundtrip`.  tests/property_tests.rs -/
def property_tests.pt_utf16le_roundtrip.loop2 : Expr :=
  (.block
    (.iteLet
      (.ctor "Ok" [(.tuple [(.bind "decoded"), (.bind "n")])])
      (.callIn "utf16_le" "decode_to_str" [(.var "tmp"), (.refMut (.var "buf")), (.bool true)])
      (.block
        (.seq (.assign (.var "tmp") (.ref (.sliceFrom (.var "tmp") (.var "n"))))
        (.seq (.method (.var "utf8") .extend [(.method (.var "decoded") .chars [])])
        .unit)))
      (.block (.seq .panic .unit))))

/-- The body of `pt_utf16le_roundtrip`.  tests/property_tests.rs -/
def property_tests.pt_utf16le_roundtrip : Expr :=
  (.block
    (.letIn (.bind "buf") (.rep (.int .u8 0) 32)
    (.letIn (.bind "utf16") (.array [])
    (.letIn (.bind "utf8") (.str [])
    (.letIn (.bind "tmp") (.ref (.sliceAll (.var "text")))
    (.seq
      (.whileDo
        (.not (.method (.var "tmp") .is_empty []))
        property_tests.pt_utf16le_roundtrip.loop1)
    (.letIn (.bind "tmp") (.ref (.sliceAll (.var "utf16")))
    (.seq
      (.whileDo
        (.not (.method (.var "tmp") .is_empty []))
        property_tests.pt_utf16le_roundtrip.loop2)
    (.seq (.assertEq (.ref (.sliceAll (.var "text"))) (.ref (.sliceAll (.var "utf8"))))
    .unit)))))))))

/-- The body of `pt_utf16le_decode_random_bytes`.  tests/property_tests.rs -/
def property_tests.pt_utf16le_decode_random_bytes : Expr :=
  (.block
    (.letIn (.bind "buf") (.vec (.int .u8 0) (.int .usize 4096))
    (.letIn .wild
      (.callIn "utf16_le" "decode_to_str" [(.var "data"), (.refMut (.var "buf")), (.bool false)])
    (.letIn .wild
      (.callIn "utf16_le" "decode_to_str" [(.var "data"), (.refMut (.var "buf")), (.bool true)])
    .unit))))

/-- The body of `pt_utf16le_encode_random_text`.  tests/property_tests.rs -/
def property_tests.pt_utf16le_encode_random_text : Expr :=
  (.block
    (.letIn (.bind "buf") (.vec (.int .u8 0) (.int .usize 4096))
    (.letIn .wild (.callIn "utf16_le" "encode_from_str" [(.var "text"), (.refMut (.var "buf"))])
    .unit)))

/-- A loop body in `pt_utf32be_roundtrip`.  tests/property_tests.rs -/
def property_tests.pt_utf32be_roundtrip.loop1 : Expr :=
  (.block
    (.iteLet
      (.ctor "Ok" [(.tuple [(.bind "encoded"), (.bind "n")])])
      (.callIn "utf32_be" "encode_from_str" [(.var "tmp"), (.refMut (.var "buf"))])
      (.block
        (.seq (.assign (.var "tmp") (.ref (.sliceFrom (.var "tmp") (.var "n"))))
        (.seq (.method (.var "utf32") .extend_from_slice [(.var "encoded")])
        .unit)))
      (.block (.seq .panic .unit))))

/-- A loop body in `pt_utf32be_roundtrip`.  tests/property_tests.rs -/
def property_tests.pt_utf32be_roundtrip.loop2 : Expr :=
  (.block
    (.iteLet
      (.ctor "Ok" [(.tuple [(.bind "decoded"), (.bind "n")])])
      (.callIn "utf32_be" "decode_to_str" [(.var "tmp"), (.refMut (.var "buf")), (.bool true)])
      (.block
        (.seq (.assign (.var "tmp") (.ref (.sliceFrom (.var "tmp") (.var "n"))))
        (.seq (.method (.var "utf8") .extend [(.method (.var "decoded") .chars [])])
        .unit)))
      (.block (.seq .panic .unit))))

/-- The body of `pt_utf32be_roundtrip`.  tests/property_tests.rs -/
def property_tests.pt_utf32be_roundtrip : Expr :=
  (.block
    (.letIn (.bind "buf") (.rep (.int .u8 0) 32)
    (.letIn (.bind "utf32") (.array [])
    (.letIn (.bind "utf8") (.str [])
    (.letIn (.bind "tmp") (.ref (.sliceAll (.var "text")))
    (.seq
      (.whileDo
        (.not (.method (.var "tmp") .is_empty []))
        property_tests.pt_utf32be_roundtrip.loop1)
    (.letIn (.bind "tmp") (.ref (.sliceAll (.var "utf32")))
    (.seq
      (.whileDo
        (.not (.method (.var "tmp") .is_empty []))
        property_tests.pt_utf32be_roundtrip.loop2)
    (.seq (.assertEq (.ref (.sliceAll (.var "text"))) (.ref (.sliceAll (.var "utf8"))))
    .unit)))))))))

/-- The body of `pt_utf32be_decode_random_bytes`.  tests/property_tests.rs -/
def property_tests.pt_utf32be_decode_random_bytes : Expr :=
  (.block
    (.letIn (.bind "buf") (.vec (.int .u8 0) (.int .usize 4096))
    (.letIn .wild
      (.callIn "utf32_be" "decode_to_str" [(.var "data"), (.refMut (.var "buf")), (.bool false)])
    (.letIn .wild
      (.callIn "utf32_be" "decode_to_str" [(.var "data"), (.refMut (.var "buf")), (.bool true)])
    .unit))))

/-- The body of `pt_utf32be_encode_random_text`.  tests/property_tests.rs -/
def property_tests.pt_utf32be_encode_random_text : Expr :=
  (.block
    (.letIn (.bind "buf") (.vec (.int .u8 0) (.int .usize 4096))
    (.letIn .wild (.callIn "utf32_be" "encode_from_str" [(.var "text"), (.refMut (.var "buf"))])
    .unit)))

/-- A loop body in `pt_utf32le_roundtrip`.  tests/property_tests.rs -/
def property_tests.pt_utf32le_roundtrip.loop1 : Expr :=
  (.block
    (.iteLet
      (.ctor "Ok" [(.tuple [(.bind "encoded"), (.bind "n")])])
      (.callIn "utf32_le" "encode_from_str" [(.var "tmp"), (.refMut (.var "buf"))])
      (.block
        (.seq (.assign (.var "tmp") (.ref (.sliceFrom (.var "tmp") (.var "n"))))
        (.seq (.method (.var "utf32") .extend_from_slice [(.var "encoded")])
        .unit)))
      (.block (.seq .panic .unit))))

/-- A loop body in `pt_utf32le_roundtrip`.  tests/property_tests.rs -/
def property_tests.pt_utf32le_roundtrip.loop2 : Expr :=
  (.block
    (.iteLet
      (.ctor "Ok" [(.tuple [(.bind "decoded"), (.bind "n")])])
      (.callIn "utf32_le" "decode_to_str" [(.var "tmp"), (.refMut (.var "buf")), (.bool true)])
      (.block
        (.seq (.assign (.var "tmp") (.ref (.sliceFrom (.var "tmp") (.var "n"))))
        (.seq (.method (.var "utf8") .extend [(.method (.var "decoded") .chars [])])
        .unit)))
      (.block (.seq .panic .unit))))

/-- The body of `pt_utf32le_roundtrip`.  tests/property_tests.rs -/
def property_tests.pt_utf32le_roundtrip : Expr :=
  (.block
    (.letIn (.bind "buf") (.rep (.int .u8 0) 32)
    (.letIn (.bind "utf32") (.array [])
    (.letIn (.bind "utf8") (.str [])
    (.letIn (.bind "tmp") (.ref (.sliceAll (.var "text")))
    (.seq
      (.whileDo
        (.not (.method (.var "tmp") .is_empty []))
        property_tests.pt_utf32le_roundtrip.loop1)
    (.letIn (.bind "tmp") (.ref (.sliceAll (.var "utf32")))
    (.seq
      (.whileDo
        (.not (.method (.var "tmp") .is_empty []))
        property_tests.pt_utf32le_roundtrip.loop2)
    (.seq (.assertEq (.ref (.sliceAll (.var "text"))) (.ref (.sliceAll (.var "utf8"))))
    .unit)))))))))

/-- The body of `pt_utf32le_decode_random_bytes`.  tests/property_tests.rs -/
def property_tests.pt_utf32le_decode_random_bytes : Expr :=
  (.block
    (.letIn (.bind "buf") (.vec (.int .u8 0) (.int .usize 4096))
    (.letIn .wild
      (.callIn "utf32_le" "decode_to_str" [(.var "data"), (.refMut (.var "buf")), (.bool false)])
    (.letIn .wild
      (.callIn "utf32_le" "decode_to_str" [(.var "data"), (.refMut (.var "buf")), (.bool true)])
    .unit))))

/-- The body of `pt_utf32le_encode_random_text`.  tests/property_tests.rs -/
def property_tests.pt_utf32le_encode_random_text : Expr :=
  (.block
    (.letIn (.bind "buf") (.vec (.int .u8 0) (.int .usize 4096))
    (.letIn .wild (.callIn "utf32_le" "encode_from_str" [(.var "text"), (.refMut (.var "buf"))])
    .unit)))

/-- A loop body in `pt_ascii_roundtrip`.  tests/property_tests.rs -/
def property_tests.pt_ascii_roundtrip.loop1 : Expr :=
  (.block
    (.iteLet
      (.ctor "Ok" [(.tuple [(.bind "decoded"), (.bind "n")])])
      (.callIn "ascii" "decode_to_str" [(.var "tmp"), (.refMut (.var "buf"))])
      (.block
        (.seq (.assign (.var "tmp") (.ref (.sliceFrom (.var "tmp") (.var "n"))))
        (.seq (.method (.var "utf8") .extend [(.method (.var "decoded") .chars [])])
        .unit)))
      (.block (.seq .panic .unit))))

/-- A loop body in `pt_ascii_roundtrip`.  tests/property_tests.rs -/
def property_tests.pt_ascii_roundtrip.loop2 : Expr :=
  (.block
    (.iteLet
      (.ctor "Ok" [(.tuple [(.bind "encoded"), (.bind "n")])])
      (.callIn "ascii" "encode_from_str" [(.var "tmp"), (.refMut (.var "buf"))])
      (.block
        (.seq (.assign (.var "tmp") (.ref (.sliceFrom (.var "tmp") (.var "n"))))
        (.seq (.method (.var "ascii") .extend_from_slice [(.var "encoded")])
        .unit)))
      (.block (.seq .panic .unit))))

/-- The body of `pt_ascii_roundtrip`.  tests/property_tests.rs -/
def property_tests.pt_ascii_roundtrip : Expr :=
  (.block
    (.letIn (.bind "buf") (.rep (.int .u8 0) 32)
    (.letIn (.bind "utf8") (.str [])
    (.letIn (.bind "ascii") (.array [])
    (.letIn (.bind "tmp") (.ref (.sliceAll (.var "data")))
    (.seq
      (.whileDo (.not (.method (.var "tmp") .is_empty [])) property_tests.pt_ascii_roundtrip.loop1)
    (.letIn (.bind "tmp") (.ref (.sliceAll (.var "utf8")))
    (.seq
      (.whileDo (.not (.method (.var "tmp") .is_empty [])) property_tests.pt_ascii_roundtrip.loop2)
    (.seq (.assertEq (.ref (.sliceAll (.var "data"))) (.ref (.sliceAll (.var "ascii"))))
    .unit)))))))))

/-- The body of `pt_ascii_decode_random_bytes`.  tests/property_tests.rs -/
def property_tests.pt_ascii_decode_random_bytes : Expr :=
  (.block
    (.letIn (.bind "buf") (.vec (.int .u8 0) (.int .usize 4096))
    (.letIn .wild (.callIn "ascii" "decode_to_str" [(.var "data"), (.refMut (.var "buf"))])
    .unit)))

/-- The body of `pt_ascii_encode_random_text`.  tests/property_tests.rs -/
def property_tests.pt_ascii_encode_random_text : Expr :=
  (.block
    (.letIn (.bind "buf") (.vec (.int .u8 0) (.int .usize 4096))
    (.letIn .wild (.callIn "ascii" "encode_from_str" [(.var "text"), (.refMut (.var "buf"))])
    .unit)))

/-- A loop body in `pt_latin1_roundtrip`.  tests/property_tests.rs -/
def property_tests.pt_latin1_roundtrip.loop1 : Expr :=
  (.block
    (.iteLet
      (.ctor "Ok" [(.tuple [(.bind "decoded"), (.bind "n")])])
      (.callIn "iso_8859_1" "decode_to_str" [(.var "tmp"), (.refMut (.var "buf"))])
      (.block
        (.seq (.assign (.var "tmp") (.ref (.sliceFrom (.var "tmp") (.var "n"))))
        (.seq (.method (.var "utf8") .extend [(.method (.var "decoded") .chars [])])
        .unit)))
      (.block (.seq .panic .unit))))

/-- A loop body in `pt_latin1_roundtrip`.  tests/property_tests.rs -/
def property_tests.pt_latin1_roundtrip.loop2 : Expr :=
  (.block
    (.iteLet
      (.ctor "Ok" [(.tuple [(.bind "encoded"), (.bind "n")])])
      (.callIn "iso_8859_1" "encode_from_str" [(.var "tmp"), (.refMut (.var "buf"))])
      (.block
        (.seq (.assign (.var "tmp") (.ref (.sliceFrom (.var "tmp") (.var "n"))))
        (.seq (.method (.var "latin1") .extend_from_slice [(.var "encoded")])
        .unit)))
      (.block (.seq .panic .unit))))

/-- The body of `pt_latin1_roundtrip`.  tests/property_tests.rs -/
def property_tests.pt_latin1_roundtrip : Expr :=
  (.block
    (.letIn (.bind "buf") (.rep (.int .u8 0) 32)
    (.letIn (.bind "utf8") (.str [])
    (.letIn (.bind "latin1") (.array [])
    (.letIn (.bind "tmp") (.ref (.sliceAll (.var "data")))
    (.seq
      (.whileDo (.not (.method (.var "tmp") .is_empty [])) property_tests.pt_latin1_roundtrip.loop1)
    (.letIn (.bind "tmp") (.ref (.sliceAll (.var "utf8")))
    (.seq
      (.whileDo (.not (.method (.var "tmp") .is_empty [])) property_tests.pt_latin1_roundtrip.loop2)
    (.seq (.assertEq (.ref (.sliceAll (.var "data"))) (.ref (.sliceAll (.var "latin1"))))
    .unit)))))))))

/-- The body of `pt_latin1_decode_random_bytes`.  tests/property_tests.rs -/
def property_tests.pt_latin1_decode_random_bytes : Expr :=
  (.block
    (.letIn (.bind "buf") (.vec (.int .u8 0) (.int .usize 4096))
    (.letIn .wild (.callIn "iso_8859_1" "decode_to_str" [(.var "data"), (.refMut (.var "buf"))])
    .unit)))

/-- The body of `pt_latin1_encode_random_text`.  tests/property_tests.rs -/
def property_tests.pt_latin1_encode_random_text : Expr :=
  (.block
    (.letIn (.bind "buf") (.vec (.int .u8 0) (.int .usize 4096))
    (.letIn .wild (.callIn "iso_8859_1" "encode_from_str" [(.var "text"), (.refMut (.var "buf"))])
    .unit)))

/-- A loop body in `pt_iso_8859_7_roundtrip`.  tests/property_tests.rs -/
def property_tests.pt_iso_8859_7_roundtrip.loop1 : Expr :=
  (.block
    (.ite
      (.bin
        .lor
        (.bin .lor (.bin .eq (.var "b") (.int .usize 174)) (.bin .eq (.var "b") (.int .usize 210)))
        (.bin .eq (.var "b") (.int .usize 255)))
      (.block (.seq (.assign (.var "b") (.int .usize 0)) .unit))
      .unit))

/-- A loop body in `pt_iso_8859_7_roundtrip`.  tests/property_tests.rs -/
def property_tests.pt_iso_8859_7_roundtrip.loop2 : Expr :=
  (.block
    (.iteLet
      (.ctor "Ok" [(.tuple [(.bind "decoded"), (.bind "n")])])
      (.callIn "iso_8859_7" "decode_to_str" [(.var "tmp"), (.refMut (.var "buf"))])
      (.block
        (.seq (.assign (.var "tmp") (.ref (.sliceFrom (.var "tmp") (.var "n"))))
        (.seq (.method (.var "utf8") .extend [(.method (.var "decoded") .chars [])])
        .unit)))
      (.block (.seq .panic .unit))))

/-- A loop body in `pt_iso_8859_7_roundtrip`.  tests/property_tests.rs -/
def property_tests.pt_iso_8859_7_roundtrip.loop3 : Expr :=
  (.block
    (.iteLet
      (.ctor "Ok" [(.tuple [(.bind "encoded"), (.bind "n")])])
      (.callIn "iso_8859_7" "encode_from_str" [(.var "tmp"), (.refMut (.var "buf"))])
      (.block
        (.seq (.assign (.var "tmp") (.ref (.sliceFrom (.var "tmp") (.var "n"))))
        (.seq (.method (.var "iso8859_7") .extend_from_slice [(.var "encoded")])
        .unit)))
      (.block (.seq .panic .unit))))

/-- The body of `pt_iso_8859_7_roundtrip`.  tests/property_tests.rs -/
def property_tests.pt_iso_8859_7_roundtrip : Expr :=
  (.block
    (.letIn (.bind "buf") (.rep (.int .u8 0) 32)
    (.letIn (.bind "utf8") (.str [])
    (.letIn (.bind "iso8859_7") (.array [])
    (.seq (.forMut "b" "data" property_tests.pt_iso_8859_7_roundtrip.loop1)
    (.letIn (.bind "tmp") (.ref (.sliceAll (.var "data")))
    (.seq
      (.whileDo
        (.not (.method (.var "tmp") .is_empty []))
        property_tests.pt_iso_8859_7_roundtrip.loop2)
    (.letIn (.bind "tmp") (.ref (.sliceAll (.var "utf8")))
    (.seq
      (.whileDo
        (.not (.method (.var "tmp") .is_empty []))
        property_tests.pt_iso_8859_7_roundtrip.loop3)
    (.seq (.assertEq (.ref (.sliceAll (.var "data"))) (.ref (.sliceAll (.var "iso8859_7"))))
    .unit))))))))))

/-- The body of `pt_iso_8859_7_decode_random_bytes`.  tests/property_tests.rs -/
def property_tests.pt_iso_8859_7_decode_random_bytes : Expr :=
  (.block
    (.letIn (.bind "buf") (.vec (.int .u8 0) (.int .usize 4096))
    (.letIn .wild (.callIn "iso_8859_7" "decode_to_str" [(.var "data"), (.refMut (.var "buf"))])
    .unit)))

/-- The body of `pt_iso_8859_7_encode_random_text`.  tests/property_tests.rs -/
def property_tests.pt_iso_8859_7_encode_random_text : Expr :=
  (.block
    (.letIn (.bind "buf") (.vec (.int .u8 0) (.int .usize 4096))
    (.letIn .wild (.callIn "iso_8859_7" "encode_from_str" [(.var "text"), (.refMut (.var "buf"))])
    .unit)))

/-- The body of `pt_big5_whatwg_decode_random_bytes`.  tests/property_tests.rs -/
def property_tests.pt_big5_whatwg_decode_random_bytes : Expr :=
  (.block
    (.letIn (.bind "buf") (.vec (.int .u8 0) (.int .usize 4096))
    (.letIn .wild
      (.callIn "big5_whatwg" "decode_to_str" [(.var "data"), (.refMut (.var "buf")), (.bool false)])
    (.letIn .wild
      (.callIn "big5_whatwg" "decode_to_str" [(.var "data"), (.refMut (.var "buf")), (.bool true)])
    .unit))))

/-- The body of `pt_big5_whatwg_encode_random_text`.  tests/property_tests.rs -/
def property_tests.pt_big5_whatwg_encode_random_text : Expr :=
  (.block
    (.letIn (.bind "buf") (.vec (.int .u8 0) (.int .usize 4096))
    (.letIn .wild
      (.callIn
        "big5_whatwg"
        "encode_from_str"
        [(.var "text"), (.refMut (.var "buf")), (.bool false)])
    (.letIn .wild
      (.callIn
        "big5_whatwg"
        "encode_from_str"
        [(.var "text"), (.refMut (.var "buf")), (.bool true)])
    .unit))))

/-- The body of `pt_shiftjis_whatwg_decode_random_bytes`.  tests/property_tests.rs -/
def property_tests.pt_shiftjis_whatwg_decode_random_bytes : Expr :=
  (.block
    (.letIn (.bind "buf") (.vec (.int .u8 0) (.int .usize 4096))
    (.letIn .wild
      (.callIn
        "shiftjis_whatwg"
        "decode_to_str"
        [(.var "data"), (.refMut (.var "buf")), (.bool false)])
    (.letIn .wild
      (.callIn
        "shiftjis_whatwg"
        "decode_to_str"
        [(.var "data"), (.refMut (.var "buf")), (.bool true)])
    .unit))))

/-- The body of `pt_shiftjis_whatwg_encode_random_text`.  tests/property_tests.rs -/
def property_tests.pt_shiftjis_whatwg_encode_random_text : Expr :=
  (.block
    (.letIn (.bind "buf") (.vec (.int .u8 0) (.int .usize 4096))
    (.letIn .wild
      (.callIn "shiftjis_whatwg" "encode_from_str" [(.var "text"), (.refMut (.var "buf"))])
    .unit)))

/-- tests/property_tests.rs -/
def property_tests : List Item :=
  [(.useGlobs "text_encoding" [["single_byte"], []]),
   (.proptest
     "pt_utf8_roundtrip"
     "text"
     (.regex ['\\', 'P', 'C', '*', '\\', 'P', 'C', '*', '\\', 'P', 'C', '*'])
     property_tests.pt_utf8_roundtrip),
   (.proptest
     "pt_utf8_decode_random_bytes"
     "data"
     (.bytes 0 255 0 512)
     property_tests.pt_utf8_decode_random_bytes),
   (.proptest
     "pt_utf8_encode_random_text"
     "text"
     (.regex ['\\', 'P', 'C', '*', '\\', 'P', 'C', '*', '\\', 'P', 'C', '*'])
     property_tests.pt_utf8_encode_random_text),
   (.proptest
     "pt_utf16be_roundtrip"
     "text"
     (.regex ['\\', 'P', 'C', '*', '\\', 'P', 'C', '*', '\\', 'P', 'C', '*'])
     property_tests.pt_utf16be_roundtrip),
   (.proptest
     "pt_utf16be_decode_random_bytes"
     "data"
     (.bytes 0 255 0 512)
     property_tests.pt_utf16be_decode_random_bytes),
   (.proptest
     "pt_utf16be_encode_random_text"
     "text"
     (.regex ['\\', 'P', 'C', '*', '\\', 'P', 'C', '*', '\\', 'P', 'C', '*'])
     property_tests.pt_utf16be_encode_random_text),
   (.proptest
     "pt_utf16le_roundtrip"
     "text"
     (.regex ['\\', 'P', 'C', '*', '\\', 'P', 'C', '*', '\\', 'P', 'C', '*'])
     property_tests.pt_utf16le_roundtrip),
   (.proptest
     "pt_utf16le_decode_random_bytes"
     "data"
     (.bytes 0 255 0 512)
     property_tests.pt_utf16le_decode_random_bytes),
   (.proptest
     "pt_utf16le_encode_random_text"
     "text"
     (.regex ['\\', 'P', 'C', '*', '\\', 'P', 'C', '*', '\\', 'P', 'C', '*'])
     property_tests.pt_utf16le_encode_random_text),
   (.proptest
     "pt_utf32be_roundtrip"
     "text"
     (.regex ['\\', 'P', 'C', '*', '\\', 'P', 'C', '*', '\\', 'P', 'C', '*'])
     property_tests.pt_utf32be_roundtrip),
   (.proptest
     "pt_utf32be_decode_random_bytes"
     "data"
     (.bytes 0 255 0 512)
     property_tests.pt_utf32be_decode_random_bytes),
   (.proptest
     "pt_utf32be_encode_random_text"
     "text"
     (.regex ['\\', 'P', 'C', '*', '\\', 'P', 'C', '*', '\\', 'P', 'C', '*'])
     property_tests.pt_utf32be_encode_random_text),
   (.proptest
     "pt_utf32le_roundtrip"
     "text"
     (.regex ['\\', 'P', 'C', '*', '\\', 'P', 'C', '*', '\\', 'P', 'C', '*'])
     property_tests.pt_utf32le_roundtrip),
   (.proptest
     "pt_utf32le_decode_random_bytes"
     "data"
     (.bytes 0 255 0 512)
     property_tests.pt_utf32le_decode_random_bytes),
   (.proptest
     "pt_utf32le_encode_random_text"
     "text"
     (.regex ['\\', 'P', 'C', '*', '\\', 'P', 'C', '*', '\\', 'P', 'C', '*'])
     property_tests.pt_utf32le_encode_random_text),
   (.proptest "pt_ascii_roundtrip" "data" (.bytes 0 127 0 1000) property_tests.pt_ascii_roundtrip),
   (.proptest
     "pt_ascii_decode_random_bytes"
     "data"
     (.bytes 0 255 0 512)
     property_tests.pt_ascii_decode_random_bytes),
   (.proptest
     "pt_ascii_encode_random_text"
     "text"
     (.regex ['\\', 'P', 'C', '*', '\\', 'P', 'C', '*', '\\', 'P', 'C', '*'])
     property_tests.pt_ascii_encode_random_text),
   (.proptest
     "pt_latin1_roundtrip"
     "data"
     (.bytes 0 255 0 1000)
     property_tests.pt_latin1_roundtrip),
   (.proptest
     "pt_latin1_decode_random_bytes"
     "data"
     (.bytes 0 255 0 512)
     property_tests.pt_latin1_decode_random_bytes),
   (.proptest
     "pt_latin1_encode_random_text"
     "text"
     (.regex ['\\', 'P', 'C', '*', '\\', 'P', 'C', '*', '\\', 'P', 'C', '*'])
     property_tests.pt_latin1_encode_random_text),
   (.proptest
     "pt_iso_8859_7_roundtrip"
     "data"
     (.bytes 0 255 0 1000)
     property_tests.pt_iso_8859_7_roundtrip),
   (.proptest
     "pt_iso_8859_7_decode_random_bytes"
     "data"
     (.bytes 0 255 0 512)
     property_tests.pt_iso_8859_7_decode_random_bytes),
   (.proptest
     "pt_iso_8859_7_encode_random_text"
     "text"
     (.regex ['\\', 'P', 'C', '*', '\\', 'P', 'C', '*', '\\', 'P', 'C', '*'])
     property_tests.pt_iso_8859_7_encode_random_text),
   (.proptest
     "pt_big5_whatwg_decode_random_bytes"
     "data"
     (.bytes 0 255 0 512)
     property_tests.pt_big5_whatwg_decode_random_bytes),
   (.proptest
     "pt_big5_whatwg_encode_random_text"
     "text"
     (.regex ['\\', 'P', 'C', '*', '\\', 'P', 'C', '*', '\\', 'P', 'C', '*'])
     property_tests.pt_big5_whatwg_encode_random_text),
   (.proptest
     "pt_shiftjis_whatwg_decode_random_bytes"
     "data"
     (.bytes 0 255 0 512)
     property_tests.pt_shiftjis_whatwg_decode_random_bytes),
   (.proptest
     "pt_shiftjis_whatwg_encode_random_text"
     "text"
     (.regex ['\\', 'P', 'C', '*', '\\', 'P', 'C', '*', '\\', 'P', 'C', '*'])
     property_tests.pt_shiftjis_whatwg_encode_random_text)]

/-- The body of `shiftjis_whatwg_encode`.  tests/shiftjis.rs -/
def shiftjis.shiftjis_whatwg_encode : Expr :=
  (.block
    (.letIn (.bind "buf") (.vec (.int .u8 0) (.method (.var "WHATWG_ENCODE_SHIFTJIS_DATA") .len []))
    (.letIn (.tuple
      [(.bind "shiftjis"),
       .wild])
      (.method
        (.call
          false
          "encode_from_str"
          [(.method (.std .from_utf8 (.var "WHATWG_ENCODE_UTF8_DATA")) .unwrap []),
           (.refMut (.var "buf"))])
        .unwrap
        [])
    (.seq (.assertEq (.var "WHATWG_ENCODE_SHIFTJIS_DATA") (.var "shiftjis"))
    .unit))))

/-- The body of `shiftjis_whatwg_decode`.  tests/shiftjis.rs -/
def shiftjis.shiftjis_whatwg_decode : Expr :=
  (.block
    (.letIn (.bind "buf") (.vec (.int .u8 0) (.method (.var "WHATWG_DECODE_UTF8_DATA") .len []))
    (.letIn (.tuple
      [(.bind "utf8"),
       .wild])
      (.method
        (.call
          false
          "decode_to_str"
          [(.var "WHATWG_DECODE_SHIFTJIS_DATA"), (.refMut (.var "buf")), (.bool true)])
        .unwrap
        [])
    (.seq (.assertEq (.var "WHATWG_DECODE_UTF8_DATA") (.method (.var "utf8") .as_bytes []))
    .unit))))

/-- tests/shiftjis.rs -/
def shiftjis : List Item :=
  [(.useNames "text_encoding" "shiftjis_whatwg" ["decode_to_str", "encode_from_str"]),
   (.const
     "WHATWG_DECODE_SHIFTJIS_DATA"
     (.includeBytes "test_data/whatwg/shiftjis_whatwg_test_decode_in.txt")),
   (.const
     "WHATWG_DECODE_UTF8_DATA"
     (.includeBytes "test_data/whatwg/shiftjis_whatwg_test_decode_out.txt")),
   (.const
     "WHATWG_ENCODE_UTF8_DATA"
     (.includeBytes "test_data/whatwg/shiftjis_whatwg_test_encode_in.txt")),
   (.const
     "WHATWG_ENCODE_SHIFTJIS_DATA"
     (.includeBytes "test_data/whatwg/shiftjis_whatwg_test_encode_out.txt")),
   .test,
   .fn "shiftjis_whatwg_encode" [] shiftjis.shiftjis_whatwg_encode,
   .test,
   .fn "shiftjis_whatwg_decode" [] shiftjis.shiftjis_whatwg_decode]

/-- The body of `big5_whatwg_encode`.  tests/big5.rs -/
def big5.big5_whatwg_encode : Expr :=
  (.block
    (.letIn (.bind "buf") (.vec (.int .u8 0) (.method (.var "WHATWG_ENCODE_BIG5_DATA") .len []))
    (.letIn (.tuple
      [(.bind "big5"),
       .wild])
      (.method
        (.call
          false
          "encode_from_str"
          [(.method (.std .from_utf8 (.var "WHATWG_ENCODE_UTF8_DATA")) .unwrap []),
           (.refMut (.var "buf")),
           (.bool true)])
        .unwrap
        [])
    (.seq (.assertEq (.var "WHATWG_ENCODE_BIG5_DATA") (.var "big5"))
    .unit))))

/-- The body of `big5_whatwg_decode`.  tests/big5.rs -/
def big5.big5_whatwg_decode : Expr :=
  (.block
    (.letIn (.bind "buf") (.vec (.int .u8 0) (.method (.var "WHATWG_DECODE_UTF8_DATA") .len []))
    (.letIn (.tuple
      [(.bind "utf8"),
       .wild])
      (.method
        (.call
          false
          "decode_to_str"
          [(.var "WHATWG_DECODE_BIG5_DATA"), (.refMut (.var "buf")), (.bool true)])
        .unwrap
        [])
    (.seq (.assertEq (.var "WHATWG_DECODE_UTF8_DATA") (.method (.var "utf8") .as_bytes []))
    .unit))))

/-- tests/big5.rs -/
def big5 : List Item :=
  [(.useNames "text_encoding" "big5_whatwg" ["decode_to_str", "encode_from_str"]),
   (.const
     "WHATWG_DECODE_BIG5_DATA"
     (.includeBytes "test_data/whatwg/big5_whatwg_test_decode_in.txt")),
   (.const
     "WHATWG_DECODE_UTF8_DATA"
     (.includeBytes "test_data/whatwg/big5_whatwg_test_decode_out.txt")),
   (.const
     "WHATWG_ENCODE_UTF8_DATA"
     (.includeBytes "test_data/whatwg/big5_whatwg_test_encode_in.txt")),
   (.const
     "WHATWG_ENCODE_BIG5_DATA"
     (.includeBytes "test_data/whatwg/big5_whatwg_test_encode_out.txt")),
   .test,
   .fn "big5_whatwg_encode" [] big5.big5_whatwg_encode,
   .test,
   .fn "big5_whatwg_decode" [] big5.big5_whatwg_decode]

end Verif.Lang.Ast
