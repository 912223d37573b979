import Verif.Lang.Syntax

/-! Generated by tools/ast.lean.txt: the syntax trees of the sources. -/

namespace Verif.Lang.Ast

/-- src/lib.rs -/
def lib : List Item :=
  [.file "big5_whatwg",
   .file "shiftjis_whatwg",
   .file "single_byte",
   .file "utf16_be",
   .file "utf16_le",
   .file "utf32_be",
   .file "utf32_le",
   .file "utf8"]

/-- The body of `encode_from_str`.  src/utf8.rs -/
def utf8.encode_from_str : Expr :=
  (.block
    (.letIn (.bind "cl")
      (.call
        false
        "copy_len"
        [(.method (.var "input") .as_bytes []), (.method (.var "out_buffer") .len [])])
    (.seq
      (.method
        (.sliceTo (.var "out_buffer") (.var "cl"))
        .copy_from_slice
        [(.method (.sliceTo (.var "input") (.var "cl")) .as_bytes [])])
    (.ctor "Ok" (.tuple [(.ref (.sliceTo (.var "out_buffer") (.var "cl"))), (.var "cl")])))))

/-- A loop body in `decode_to_str`.  src/utf8.rs -/
def utf8.decode_to_str.loop1 : Expr :=
  (.block (.seq (.opAssign .add (.var "i") (.int .usize 1)) .unit))

/-- The body of `decode_to_str`.  src/utf8.rs -/
def utf8.decode_to_str : Expr :=
  (.block
    (.letIn (.bind "valid_up_to")
      (.matchOn
        (.std .from_utf8 (.var "input"))
        [(.ctor "Ok" [(.bind "text")]), (.ctor "Err" [(.bind "e")])]
        [(.method (.var "text") .len []), (.method (.var "e") .valid_up_to [])])
    (.letIn (.bind "bytes_copied")
      (.call
        false
        "copy_len"
        [(.ref (.sliceTo (.var "input") (.var "valid_up_to"))),
         (.method (.var "out_buffer") .len [])])
    (.seq
      (.method
        (.sliceTo (.var "out_buffer") (.var "bytes_copied"))
        .copy_from_slice
        [(.ref (.sliceTo (.var "input") (.var "bytes_copied")))])
    (.seq
      (.ite
        (.bin
          .land
          (.bin
            .land
            (.bin .lt (.var "bytes_copied") (.method (.var "out_buffer") .len []))
            (.bin .eq (.var "bytes_copied") (.var "valid_up_to")))
          (.bin .lt (.var "valid_up_to") (.method (.var "input") .len [])))
        (.block
          (.letIn (.bind "trailing_bytes")
            (.bin .sub (.method (.var "input") .len []) (.var "valid_up_to"))
          (.letIn (.bind "byte") (.index (.var "input") (.var "valid_up_to"))
          (.letIn (.bind "is_truncated")
            (.bin
              .lor
              (.bin
                .lor
                (.bin
                  .land
                  (.bin .eq (.bin .and (.var "byte") (.int .usize 224)) (.int .usize 192))
                  (.bin .lt (.var "trailing_bytes") (.int .usize 2)))
                (.bin
                  .land
                  (.bin .eq (.bin .and (.var "byte") (.int .usize 240)) (.int .usize 224))
                  (.bin .lt (.var "trailing_bytes") (.int .usize 3))))
              (.bin
                .land
                (.bin .eq (.bin .and (.var "byte") (.int .usize 248)) (.int .usize 240))
                (.bin .lt (.var "trailing_bytes") (.int .usize 4))))
          (.ite
            (.not (.var "is_truncated"))
            (.block
              (.letIn (.bind "i") (.bin .add (.var "valid_up_to") (.int .usize 1))
              (.seq
                (.whileDo
                  (.bin
                    .land
                    (.bin .lt (.var "i") (.method (.var "input") .len []))
                    (.bin
                      .lor
                      (.bin
                        .eq
                        (.bin .and (.index (.var "input") (.var "i")) (.int .usize 192))
                        (.int .usize 128))
                      (.bin
                        .eq
                        (.bin .and (.index (.var "input") (.var "i")) (.int .usize 248))
                        (.int .usize 248))))
                  utf8.decode_to_str.loop1)
              (.seq
                (.return
                  (.ctor
                    "Err"
                    (.struct
                      "DecodeError"
                      ["cause", "error_range", "output_bytes_written"]
                      [(.variant "InvalidData"),
                       (.tuple [(.var "valid_up_to"), (.var "i")]),
                       (.var "bytes_copied")])))
              .unit))))
            (.ite
              (.var "is_end")
              (.block
                (.seq
                  (.return
                    (.ctor
                      "Err"
                      (.struct
                        "DecodeError"
                        ["cause", "error_range", "output_bytes_written"]
                        [(.variant "InvalidData"),
                         (.tuple [(.var "valid_up_to"), (.method (.var "input") .len [])]),
                         (.var "bytes_copied")])))
                .unit))
              .unit))))))
        .unit)
    (.ctor
      "Ok"
      (.tuple
        [(.block
           (.std .from_utf8_unchecked (.ref (.sliceTo (.var "out_buffer") (.var "bytes_copied"))))),
         (.var "bytes_copied")])))))))

/-- A loop body in `copy_len`.  src/utf8.rs -/
def utf8.copy_len.loop1 : Expr :=
  (.block (.seq (.opAssign .sub (.var "i") (.int .usize 1)) .unit))

/-- The body of `copy_len`.  src/utf8.rs -/
def utf8.copy_len : Expr :=
  (.block
    (.ite
      (.bin .ge (.var "output_len") (.method (.var "input") .len []))
      (.block (.method (.var "input") .len []))
      (.block
        (.letIn (.bind "i") (.var "output_len")
        (.seq
          (.whileDo
            (.bin
              .land
              (.bin .gt (.var "i") (.int .usize 0))
              (.bin
                .eq
                (.bin .and (.index (.var "input") (.var "i")) (.int .usize 192))
                (.int .usize 128)))
            utf8.copy_len.loop1)
        (.var "i"))))))

/-- src/utf8.rs -/
def utf8 : List Item :=
  [.fn "encode_from_str" [("input", false), ("out_buffer", true)] utf8.encode_from_str,
   .fn "decode_to_str"
     [("input", false), ("out_buffer", true), ("is_end", false)]
     utf8.decode_to_str,
   .fn "copy_len" [("input", false), ("output_len", false)] utf8.copy_len]

/-- A loop body in `encode_from_str`.  src/utf16_be.rs -/
def utf16_be.encode_from_str.loop1 : Expr :=
  (.block
    (.letIn (.bind "code") (.cast (.var "c") .u32)
    (.ite
      (.bin .le (.var "code") (.int .usize 65535))
      (.block
        (.ite
          (.bin
            .lt
            (.bin .add (.var "output_i") (.int .usize 1))
            (.method (.var "out_buffer") .len []))
          (.block
            (.letIn (.bind "val") (.method (.cast (.var "code") .u16) .to_be_bytes [])
            (.seq
              (.assign
                (.index (.var "out_buffer") (.var "output_i"))
                (.index (.var "val") (.int .usize 0)))
            (.seq
              (.assign
                (.index (.var "out_buffer") (.bin .add (.var "output_i") (.int .usize 1)))
                (.index (.var "val") (.int .usize 1)))
            (.seq (.opAssign .add (.var "output_i") (.int .usize 2))
            (.seq (.assign (.var "input_i") (.bin .add (.var "offset") (.int .usize 1)))
            .unit))))))
          (.block (.seq .break .unit))))
      (.ite
        (.bin
          .lt
          (.bin .add (.var "output_i") (.int .usize 3))
          (.method (.var "out_buffer") .len []))
        (.block
          (.seq (.opAssign .sub (.var "code") (.int .usize 65536))
          (.letIn (.bind "first")
            (.method
              (.bin .or (.int .usize 55296) (.cast (.bin .shr (.var "code") (.int .usize 10)) .u16))
              .to_be_bytes
              [])
          (.letIn (.bind "second")
            (.method
              (.bin
                .or
                (.int .usize 56320)
                (.bin .and (.cast (.var "code") .u16) (.int .usize 1023)))
              .to_be_bytes
              [])
          (.seq
            (.assign
              (.index (.var "out_buffer") (.var "output_i"))
              (.index (.var "first") (.int .usize 0)))
          (.seq
            (.assign
              (.index (.var "out_buffer") (.bin .add (.var "output_i") (.int .usize 1)))
              (.index (.var "first") (.int .usize 1)))
          (.seq
            (.assign
              (.index (.var "out_buffer") (.bin .add (.var "output_i") (.int .usize 2)))
              (.index (.var "second") (.int .usize 0)))
          (.seq
            (.assign
              (.index (.var "out_buffer") (.bin .add (.var "output_i") (.int .usize 3)))
              (.index (.var "second") (.int .usize 1)))
          (.seq (.opAssign .add (.var "output_i") (.int .usize 4))
          (.seq (.assign (.var "input_i") (.bin .add (.var "offset") (.int .usize 1)))
          .unit))))))))))
        (.block (.seq .break .unit))))))

/-- A loop body in `encode_from_str`.  src/utf16_be.rs -/
def utf16_be.encode_from_str.loop2 : Expr :=
  (.block (.seq (.opAssign .add (.var "input_i") (.int .usize 1)) .unit))

/-- The body of `encode_from_str`.  src/utf16_be.rs -/
def utf16_be.encode_from_str : Expr :=
  (.block
    (.letIn (.bind "input_i") (.int .usize 0)
    (.letIn (.bind "output_i") (.int .usize 0)
    (.seq
      (.forIn
        (.tuple [(.bind "offset"), (.bind "c")])
        (.method (.var "input") .char_indices [])
        utf16_be.encode_from_str.loop1)
    (.seq
      (.ite
        (.bin .gt (.var "input_i") (.method (.var "input") .len []))
        (.block (.seq (.assign (.var "input_i") (.method (.var "input") .len [])) .unit))
        (.block
          (.whileDo
            (.not (.method (.var "input") .is_char_boundary [(.var "input_i")]))
            utf16_be.encode_from_str.loop2)))
    (.ctor
      "Ok"
      (.tuple [(.ref (.sliceTo (.var "out_buffer") (.var "output_i"))), (.var "input_i")])))))))

/-- A loop body in `decode_to_str`.  src/utf16_be.rs -/
def utf16_be.decode_to_str.loop1 : Expr :=
  (.block
    (.seq
      (.ite
        (.bin .lt (.method (.var "bytes") .len []) (.int .usize 2))
        (.block
          (.ite
            (.not (.var "is_end"))
            (.block (.seq .break .unit))
            (.block
              (.seq
                (.return
                  (.ctor
                    "Err"
                    (.struct
                      "DecodeError"
                      ["cause", "error_range", "output_bytes_written"]
                      [(.variant "InvalidData"),
                       (.tuple [(.var "input_i"), (.method (.var "input") .len [])]),
                       (.var "output_i")])))
              .unit))))
        .unit)
    (.letIn (.bind "code")
      (.block
        (.letIn (.bind "code_1")
          (.std
            (.from_be_bytes .u16)
            (.array
              [(.index (.var "bytes") (.int .usize 0)), (.index (.var "bytes") (.int .usize 1))]))
        (.ite
          (.bin
            .lor
            (.bin .lt (.var "code_1") (.int .usize 55296))
            (.bin .gt (.var "code_1") (.int .usize 57343)))
          (.block (.block (.std .from_u32_unchecked (.cast (.var "code_1") .u32))))
          (.ite
            (.bin .eq (.bin .and (.var "code_1") (.int .usize 64512)) (.int .usize 56320))
            (.block
              (.seq
                (.return
                  (.ctor
                    "Err"
                    (.struct
                      "DecodeError"
                      ["cause", "error_range", "output_bytes_written"]
                      [(.variant "InvalidData"),
                       (.tuple [(.var "input_i"), (.bin .add (.var "input_i") (.int .usize 2))]),
                       (.var "output_i")])))
              .unit))
            (.block
              (.seq
                (.ite
                  (.bin
                    .ge
                    (.bin .add (.var "input_i") (.int .usize 3))
                    (.method (.var "input") .len []))
                  (.block
                    (.ite
                      (.not (.var "is_end"))
                      (.block (.seq .break .unit))
                      (.block
                        (.seq
                          (.return
                            (.ctor
                              "Err"
                              (.struct
                                "DecodeError"
                                ["cause", "error_range", "output_bytes_written"]
                                [(.variant "InvalidData"),
                                 (.tuple [(.var "input_i"), (.method (.var "input") .len [])]),
                                 (.var "output_i")])))
                        .unit))))
                  .unit)
              (.letIn (.bind "bytes_2") (.method (.method (.var "itr") .next []) .unwrap [])
              (.letIn (.bind "code_2")
                (.std
                  (.from_be_bytes .u16)
                  (.array
                    [(.index (.var "bytes_2") (.int .usize 0)),
                     (.index (.var "bytes_2") (.int .usize 1))]))
              (.seq
                (.ite
                  (.bin .ne (.bin .and (.var "code_2") (.int .usize 64512)) (.int .usize 56320))
                  (.block
                    (.seq
                      (.return
                        (.ctor
                          "Err"
                          (.struct
                            "DecodeError"
                            ["cause", "error_range", "output_bytes_written"]
                            [(.variant "InvalidData"),
                             (.tuple
                               [(.var "input_i"), (.bin .add (.var "input_i") (.int .usize 2))]),
                             (.var "output_i")])))
                    .unit))
                  .unit)
              (.block
                (.std
                  .from_u32_unchecked
                  (.bin
                    .add
                    (.bin
                      .or
                      (.bin
                        .shl
                        (.bin .sub (.cast (.var "code_1") .u32) (.int .usize 55296))
                        (.int .usize 10))
                      (.bin .sub (.cast (.var "code_2") .u32) (.int .usize 56320)))
                    (.int .usize 65536)))))))))))))
    (.letIn (.bind "buf") (.rep (.int .u8 0) 4)
    (.letIn (.bind "s") (.method (.var "code") .encode_utf8 [(.refMut (.var "buf"))])
    (.seq
      (.ite
        (.bin
          .gt
          (.bin .add (.var "output_i") (.method (.var "s") .len []))
          (.method (.var "out_buffer") .len []))
        (.block (.seq .break .unit))
        .unit)
    (.seq
      (.method
        (.slice
          (.var "out_buffer")
          (.var "output_i")
          (.bin .add (.var "output_i") (.method (.var "s") .len [])))
        .copy_from_slice
        [(.method (.var "s") .as_bytes [])])
    (.seq
      (.opAssign
        .add
        (.var "input_i")
        (.bin .mul (.method (.var "code") .len_utf16 []) (.int .usize 2)))
    (.seq (.opAssign .add (.var "output_i") (.method (.var "s") .len []))
    .unit)))))))))

/-- The body of `decode_to_str`.  src/utf16_be.rs -/
def utf16_be.decode_to_str : Expr :=
  (.block
    (.letIn (.bind "input_i") (.int .usize 0)
    (.letIn (.bind "output_i") (.int .usize 0)
    (.letIn (.bind "itr") (.method (.var "input") .chunks [(.int .usize 2)])
    (.seq
      (.whileLet
        (.ctor "Some" [(.bind "bytes")])
        (.method (.var "itr") .next [])
        utf16_be.decode_to_str.loop1)
    (.ctor
      "Ok"
      (.tuple
        [(.block
           (.std .from_utf8_unchecked (.ref (.sliceTo (.var "out_buffer") (.var "output_i"))))),
         (.var "input_i")])))))))

/-- src/utf16_be.rs -/
def utf16_be : List Item :=
  [.fn "encode_from_str" [("input", false), ("out_buffer", true)] utf16_be.encode_from_str,
   .fn "decode_to_str"
     [("input", false), ("out_buffer", true), ("is_end", false)]
     utf16_be.decode_to_str]

/-- A loop body in `encode_from_str`.  src/utf16_le.rs -/
def utf16_le.encode_from_str.loop1 : Expr :=
  (.block
    (.letIn (.bind "code") (.cast (.var "c") .u32)
    (.ite
      (.bin .le (.var "code") (.int .usize 65535))
      (.block
        (.ite
          (.bin
            .lt
            (.bin .add (.var "output_i") (.int .usize 1))
            (.method (.var "out_buffer") .len []))
          (.block
            (.letIn (.bind "val") (.method (.cast (.var "code") .u16) .to_le_bytes [])
            (.seq
              (.assign
                (.index (.var "out_buffer") (.var "output_i"))
                (.index (.var "val") (.int .usize 0)))
            (.seq
              (.assign
                (.index (.var "out_buffer") (.bin .add (.var "output_i") (.int .usize 1)))
                (.index (.var "val") (.int .usize 1)))
            (.seq (.opAssign .add (.var "output_i") (.int .usize 2))
            (.seq (.assign (.var "input_i") (.bin .add (.var "offset") (.int .usize 1)))
            .unit))))))
          (.block (.seq .break .unit))))
      (.ite
        (.bin
          .lt
          (.bin .add (.var "output_i") (.int .usize 3))
          (.method (.var "out_buffer") .len []))
        (.block
          (.seq (.opAssign .sub (.var "code") (.int .usize 65536))
          (.letIn (.bind "first")
            (.method
              (.bin .or (.int .usize 55296) (.cast (.bin .shr (.var "code") (.int .usize 10)) .u16))
              .to_le_bytes
              [])
          (.letIn (.bind "second")
            (.method
              (.bin
                .or
                (.int .usize 56320)
                (.bin .and (.cast (.var "code") .u16) (.int .usize 1023)))
              .to_le_bytes
              [])
          (.seq
            (.assign
              (.index (.var "out_buffer") (.var "output_i"))
              (.index (.var "first") (.int .usize 0)))
          (.seq
            (.assign
              (.index (.var "out_buffer") (.bin .add (.var "output_i") (.int .usize 1)))
              (.index (.var "first") (.int .usize 1)))
          (.seq
            (.assign
              (.index (.var "out_buffer") (.bin .add (.var "output_i") (.int .usize 2)))
              (.index (.var "second") (.int .usize 0)))
          (.seq
            (.assign
              (.index (.var "out_buffer") (.bin .add (.var "output_i") (.int .usize 3)))
              (.index (.var "second") (.int .usize 1)))
          (.seq (.opAssign .add (.var "output_i") (.int .usize 4))
          (.seq (.assign (.var "input_i") (.bin .add (.var "offset") (.int .usize 1)))
          .unit))))))))))
        (.block (.seq .break .unit))))))

/-- A loop body in `encode_from_str`.  src/utf16_le.rs -/
def utf16_le.encode_from_str.loop2 : Expr :=
  (.block (.seq (.opAssign .add (.var "input_i") (.int .usize 1)) .unit))

/-- The body of `encode_from_str`.  src/utf16_le.rs -/
def utf16_le.encode_from_str : Expr :=
  (.block
    (.letIn (.bind "input_i") (.int .usize 0)
    (.letIn (.bind "output_i") (.int .usize 0)
    (.seq
      (.forIn
        (.tuple [(.bind "offset"), (.bind "c")])
        (.method (.var "input") .char_indices [])
        utf16_le.encode_from_str.loop1)
    (.seq
      (.ite
        (.bin .gt (.var "input_i") (.method (.var "input") .len []))
        (.block (.seq (.assign (.var "input_i") (.method (.var "input") .len [])) .unit))
        (.block
          (.whileDo
            (.not (.method (.var "input") .is_char_boundary [(.var "input_i")]))
            utf16_le.encode_from_str.loop2)))
    (.ctor
      "Ok"
      (.tuple [(.ref (.sliceTo (.var "out_buffer") (.var "output_i"))), (.var "input_i")])))))))

/-- A loop body in `decode_to_str`.  src/utf16_le.rs -/
def utf16_le.decode_to_str.loop1 : Expr :=
  (.block
    (.seq
      (.ite
        (.bin .lt (.method (.var "bytes") .len []) (.int .usize 2))
        (.block
          (.ite
            (.not (.var "is_end"))
            (.block (.seq .break .unit))
            (.block
              (.seq
                (.return
                  (.ctor
                    "Err"
                    (.struct
                      "DecodeError"
                      ["cause", "error_range", "output_bytes_written"]
                      [(.variant "InvalidData"),
                       (.tuple [(.var "input_i"), (.method (.var "input") .len [])]),
                       (.var "output_i")])))
              .unit))))
        .unit)
    (.letIn (.bind "code")
      (.block
        (.letIn (.bind "code_1")
          (.std
            (.from_le_bytes .u16)
            (.array
              [(.index (.var "bytes") (.int .usize 0)), (.index (.var "bytes") (.int .usize 1))]))
        (.ite
          (.bin
            .lor
            (.bin .lt (.var "code_1") (.int .usize 55296))
            (.bin .gt (.var "code_1") (.int .usize 57343)))
          (.block (.block (.std .from_u32_unchecked (.cast (.var "code_1") .u32))))
          (.ite
            (.bin .eq (.bin .and (.var "code_1") (.int .usize 64512)) (.int .usize 56320))
            (.block
              (.seq
                (.return
                  (.ctor
                    "Err"
                    (.struct
                      "DecodeError"
                      ["cause", "error_range", "output_bytes_written"]
                      [(.variant "InvalidData"),
                       (.tuple [(.var "input_i"), (.bin .add (.var "input_i") (.int .usize 2))]),
                       (.var "output_i")])))
              .unit))
            (.block
              (.seq
                (.ite
                  (.bin
                    .ge
                    (.bin .add (.var "input_i") (.int .usize 3))
                    (.method (.var "input") .len []))
                  (.block
                    (.ite
                      (.not (.var "is_end"))
                      (.block (.seq .break .unit))
                      (.block
                        (.seq
                          (.return
                            (.ctor
                              "Err"
                              (.struct
                                "DecodeError"
                                ["cause", "error_range", "output_bytes_written"]
                                [(.variant "InvalidData"),
                                 (.tuple [(.var "input_i"), (.method (.var "input") .len [])]),
                                 (.var "output_i")])))
                        .unit))))
                  .unit)
              (.letIn (.bind "bytes_2") (.method (.method (.var "itr") .next []) .unwrap [])
              (.letIn (.bind "code_2")
                (.std
                  (.from_le_bytes .u16)
                  (.array
                    [(.index (.var "bytes_2") (.int .usize 0)),
                     (.index (.var "bytes_2") (.int .usize 1))]))
              (.seq
                (.ite
                  (.bin .ne (.bin .and (.var "code_2") (.int .usize 64512)) (.int .usize 56320))
                  (.block
                    (.seq
                      (.return
                        (.ctor
                          "Err"
                          (.struct
                            "DecodeError"
                            ["cause", "error_range", "output_bytes_written"]
                            [(.variant "InvalidData"),
                             (.tuple
                               [(.var "input_i"), (.bin .add (.var "input_i") (.int .usize 2))]),
                             (.var "output_i")])))
                    .unit))
                  .unit)
              (.block
                (.std
                  .from_u32_unchecked
                  (.bin
                    .add
                    (.bin
                      .or
                      (.bin
                        .shl
                        (.bin .sub (.cast (.var "code_1") .u32) (.int .usize 55296))
                        (.int .usize 10))
                      (.bin .sub (.cast (.var "code_2") .u32) (.int .usize 56320)))
                    (.int .usize 65536)))))))))))))
    (.letIn (.bind "buf") (.rep (.int .u8 0) 4)
    (.letIn (.bind "s") (.method (.var "code") .encode_utf8 [(.refMut (.var "buf"))])
    (.seq
      (.ite
        (.bin
          .gt
          (.bin .add (.var "output_i") (.method (.var "s") .len []))
          (.method (.var "out_buffer") .len []))
        (.block (.seq .break .unit))
        .unit)
    (.seq
      (.method
        (.slice
          (.var "out_buffer")
          (.var "output_i")
          (.bin .add (.var "output_i") (.method (.var "s") .len [])))
        .copy_from_slice
        [(.method (.var "s") .as_bytes [])])
    (.seq
      (.opAssign
        .add
        (.var "input_i")
        (.bin .mul (.method (.var "code") .len_utf16 []) (.int .usize 2)))
    (.seq (.opAssign .add (.var "output_i") (.method (.var "s") .len []))
    .unit)))))))))

/-- The body of `decode_to_str`.  src/utf16_le.rs -/
def utf16_le.decode_to_str : Expr :=
  (.block
    (.letIn (.bind "input_i") (.int .usize 0)
    (.letIn (.bind "output_i") (.int .usize 0)
    (.letIn (.bind "itr") (.method (.var "input") .chunks [(.int .usize 2)])
    (.seq
      (.whileLet
        (.ctor "Some" [(.bind "bytes")])
        (.method (.var "itr") .next [])
        utf16_le.decode_to_str.loop1)
    (.ctor
      "Ok"
      (.tuple
        [(.block
           (.std .from_utf8_unchecked (.ref (.sliceTo (.var "out_buffer") (.var "output_i"))))),
         (.var "input_i")])))))))

/-- src/utf16_le.rs -/
def utf16_le : List Item :=
  [.fn "encode_from_str" [("input", false), ("out_buffer", true)] utf16_le.encode_from_str,
   .fn "decode_to_str"
     [("input", false), ("out_buffer", true), ("is_end", false)]
     utf16_le.decode_to_str]

/-- A loop body in `encode_from_str`.  src/utf32_be.rs -/
def utf32_be.encode_from_str.loop1 : Expr :=
  (.block
    (.ite
      (.bin .lt (.bin .add (.var "output_i") (.int .usize 3)) (.method (.var "out_buffer") .len []))
      (.block
        (.letIn (.bind "code") (.method (.cast (.var "c") .u32) .to_be_bytes [])
        (.seq
          (.assign
            (.index (.var "out_buffer") (.var "output_i"))
            (.index (.var "code") (.int .usize 0)))
        (.seq
          (.assign
            (.index (.var "out_buffer") (.bin .add (.var "output_i") (.int .usize 1)))
            (.index (.var "code") (.int .usize 1)))
        (.seq
          (.assign
            (.index (.var "out_buffer") (.bin .add (.var "output_i") (.int .usize 2)))
            (.index (.var "code") (.int .usize 2)))
        (.seq
          (.assign
            (.index (.var "out_buffer") (.bin .add (.var "output_i") (.int .usize 3)))
            (.index (.var "code") (.int .usize 3)))
        (.seq (.opAssign .add (.var "output_i") (.int .usize 4))
        (.seq (.assign (.var "input_i") (.bin .add (.var "offset") (.int .usize 1)))
        .unit))))))))
      (.block (.seq .break .unit))))

/-- A loop body in `encode_from_str`.  src/utf32_be.rs -/
def utf32_be.encode_from_str.loop2 : Expr :=
  (.block (.seq (.opAssign .add (.var "input_i") (.int .usize 1)) .unit))

/-- The body of `encode_from_str`.  src/utf32_be.rs -/
def utf32_be.encode_from_str : Expr :=
  (.block
    (.letIn (.bind "input_i") (.int .usize 0)
    (.letIn (.bind "output_i") (.int .usize 0)
    (.seq
      (.forIn
        (.tuple [(.bind "offset"), (.bind "c")])
        (.method (.var "input") .char_indices [])
        utf32_be.encode_from_str.loop1)
    (.seq
      (.ite
        (.bin .gt (.var "input_i") (.method (.var "input") .len []))
        (.block (.seq (.assign (.var "input_i") (.method (.var "input") .len [])) .unit))
        (.block
          (.whileDo
            (.not (.method (.var "input") .is_char_boundary [(.var "input_i")]))
            utf32_be.encode_from_str.loop2)))
    (.ctor
      "Ok"
      (.tuple [(.ref (.sliceTo (.var "out_buffer") (.var "output_i"))), (.var "input_i")])))))))

/-- A loop body in `decode_to_str`.  src/utf32_be.rs -/
def utf32_be.decode_to_str.loop1 : Expr :=
  (.block
    (.seq
      (.ite
        (.bin .lt (.method (.var "bytes") .len []) (.int .usize 4))
        (.block
          (.ite
            (.not (.var "is_end"))
            (.block (.seq .break .unit))
            (.block
              (.seq
                (.return
                  (.ctor
                    "Err"
                    (.struct
                      "DecodeError"
                      ["cause", "error_range", "output_bytes_written"]
                      [(.variant "InvalidData"),
                       (.tuple [(.var "input_i"), (.method (.var "input") .len [])]),
                       (.var "output_i")])))
              .unit))))
        .unit)
    (.iteLet
      (.ctor "Some" [(.bind "code")])
      (.std
        .from_u32
        (.std
          (.from_be_bytes .u32)
          (.array
            [(.index (.var "bytes") (.int .usize 0)),
             (.index (.var "bytes") (.int .usize 1)),
             (.index (.var "bytes") (.int .usize 2)),
             (.index (.var "bytes") (.int .usize 3))])))
      (.block
        (.letIn (.bind "buf") (.rep (.int .u8 0) 4)
        (.letIn (.bind "s") (.method (.var "code") .encode_utf8 [(.refMut (.var "buf"))])
        (.seq
          (.ite
            (.bin
              .gt
              (.bin .add (.var "output_i") (.method (.var "s") .len []))
              (.method (.var "out_buffer") .len []))
            (.block (.seq .break .unit))
            .unit)
        (.seq
          (.method
            (.slice
              (.var "out_buffer")
              (.var "output_i")
              (.bin .add (.var "output_i") (.method (.var "s") .len [])))
            .copy_from_slice
            [(.method (.var "s") .as_bytes [])])
        (.seq (.opAssign .add (.var "input_i") (.int .usize 4))
        (.seq (.opAssign .add (.var "output_i") (.method (.var "s") .len []))
        .unit)))))))
      (.block
        (.seq
          (.return
            (.ctor
              "Err"
              (.struct
                "DecodeError"
                ["cause", "error_range", "output_bytes_written"]
                [(.variant "InvalidData"),
                 (.tuple [(.var "input_i"), (.bin .add (.var "input_i") (.int .usize 4))]),
                 (.var "output_i")])))
        .unit)))))

/-- The body of `decode_to_str`.  src/utf32_be.rs -/
def utf32_be.decode_to_str : Expr :=
  (.block
    (.letIn (.bind "input_i") (.int .usize 0)
    (.letIn (.bind "output_i") (.int .usize 0)
    (.seq
      (.forIn
        (.bind "bytes")
        (.method (.var "input") .chunks [(.int .usize 4)])
        utf32_be.decode_to_str.loop1)
    (.ctor
      "Ok"
      (.tuple
        [(.block
           (.std .from_utf8_unchecked (.ref (.sliceTo (.var "out_buffer") (.var "output_i"))))),
         (.var "input_i")]))))))

/-- src/utf32_be.rs -/
def utf32_be : List Item :=
  [.fn "encode_from_str" [("input", false), ("out_buffer", true)] utf32_be.encode_from_str,
   .fn "decode_to_str"
     [("input", false), ("out_buffer", true), ("is_end", false)]
     utf32_be.decode_to_str]

/-- A loop body in `encode_from_str`.  src/utf32_le.rs -/
def utf32_le.encode_from_str.loop1 : Expr :=
  (.block
    (.ite
      (.bin .lt (.bin .add (.var "output_i") (.int .usize 3)) (.method (.var "out_buffer") .len []))
      (.block
        (.letIn (.bind "code") (.method (.cast (.var "c") .u32) .to_le_bytes [])
        (.seq
          (.assign
            (.index (.var "out_buffer") (.var "output_i"))
            (.index (.var "code") (.int .usize 0)))
        (.seq
          (.assign
            (.index (.var "out_buffer") (.bin .add (.var "output_i") (.int .usize 1)))
            (.index (.var "code") (.int .usize 1)))
        (.seq
          (.assign
            (.index (.var "out_buffer") (.bin .add (.var "output_i") (.int .usize 2)))
            (.index (.var "code") (.int .usize 2)))
        (.seq
          (.assign
            (.index (.var "out_buffer") (.bin .add (.var "output_i") (.int .usize 3)))
            (.index (.var "code") (.int .usize 3)))
        (.seq (.opAssign .add (.var "output_i") (.int .usize 4))
        (.seq (.assign (.var "input_i") (.bin .add (.var "offset") (.int .usize 1)))
        .unit))))))))
      (.block (.seq .break .unit))))

/-- A loop body in `encode_from_str`.  src/utf32_le.rs -/
def utf32_le.encode_from_str.loop2 : Expr :=
  (.block (.seq (.opAssign .add (.var "input_i") (.int .usize 1)) .unit))

/-- The body of `encode_from_str`.  src/utf32_le.rs -/
def utf32_le.encode_from_str : Expr :=
  (.block
    (.letIn (.bind "input_i") (.int .usize 0)
    (.letIn (.bind "output_i") (.int .usize 0)
    (.seq
      (.forIn
        (.tuple [(.bind "offset"), (.bind "c")])
        (.method (.var "input") .char_indices [])
        utf32_le.encode_from_str.loop1)
    (.seq
      (.ite
        (.bin .gt (.var "input_i") (.method (.var "input") .len []))
        (.block (.seq (.assign (.var "input_i") (.method (.var "input") .len [])) .unit))
        (.block
          (.whileDo
            (.not (.method (.var "input") .is_char_boundary [(.var "input_i")]))
            utf32_le.encode_from_str.loop2)))
    (.ctor
      "Ok"
      (.tuple [(.ref (.sliceTo (.var "out_buffer") (.var "output_i"))), (.var "input_i")])))))))

/-- A loop body in `decode_to_str`.  src/utf32_le.rs -/
def utf32_le.decode_to_str.loop1 : Expr :=
  (.block
    (.seq
      (.ite
        (.bin .lt (.method (.var "bytes") .len []) (.int .usize 4))
        (.block
          (.ite
            (.not (.var "is_end"))
            (.block (.seq .break .unit))
            (.block
              (.seq
                (.return
                  (.ctor
                    "Err"
                    (.struct
                      "DecodeError"
                      ["cause", "error_range", "output_bytes_written"]
                      [(.variant "InvalidData"),
                       (.tuple [(.var "input_i"), (.method (.var "input") .len [])]),
                       (.var "output_i")])))
              .unit))))
        .unit)
    (.iteLet
      (.ctor "Some" [(.bind "code")])
      (.std
        .from_u32
        (.std
          (.from_le_bytes .u32)
          (.array
            [(.index (.var "bytes") (.int .usize 0)),
             (.index (.var "bytes") (.int .usize 1)),
             (.index (.var "bytes") (.int .usize 2)),
             (.index (.var "bytes") (.int .usize 3))])))
      (.block
        (.letIn (.bind "buf") (.rep (.int .u8 0) 4)
        (.letIn (.bind "s") (.method (.var "code") .encode_utf8 [(.refMut (.var "buf"))])
        (.seq
          (.ite
            (.bin
              .gt
              (.bin .add (.var "output_i") (.method (.var "s") .len []))
              (.method (.var "out_buffer") .len []))
            (.block (.seq .break .unit))
            .unit)
        (.seq
          (.method
            (.slice
              (.var "out_buffer")
              (.var "output_i")
              (.bin .add (.var "output_i") (.method (.var "s") .len [])))
            .copy_from_slice
            [(.method (.var "s") .as_bytes [])])
        (.seq (.opAssign .add (.var "input_i") (.int .usize 4))
        (.seq (.opAssign .add (.var "output_i") (.method (.var "s") .len []))
        .unit)))))))
      (.block
        (.seq
          (.return
            (.ctor
              "Err"
              (.struct
                "DecodeError"
                ["cause", "error_range", "output_bytes_written"]
                [(.variant "InvalidData"),
                 (.tuple [(.var "input_i"), (.bin .add (.var "input_i") (.int .usize 4))]),
                 (.var "output_i")])))
        .unit)))))

/-- The body of `decode_to_str`.  src/utf32_le.rs -/
def utf32_le.decode_to_str : Expr :=
  (.block
    (.letIn (.bind "input_i") (.int .usize 0)
    (.letIn (.bind "output_i") (.int .usize 0)
    (.seq
      (.forIn
        (.bind "bytes")
        (.method (.var "input") .chunks [(.int .usize 4)])
        utf32_le.decode_to_str.loop1)
    (.ctor
      "Ok"
      (.tuple
        [(.block
           (.std .from_utf8_unchecked (.ref (.sliceTo (.var "out_buffer") (.var "output_i"))))),
         (.var "input_i")]))))))

/-- src/utf32_le.rs -/
def utf32_le : List Item :=
  [.fn "encode_from_str" [("input", false), ("out_buffer", true)] utf32_le.encode_from_str,
   .fn "decode_to_str"
     [("input", false), ("out_buffer", true), ("is_end", false)]
     utf32_le.decode_to_str]

/-- A loop body in `encode_from_str`.  src/shiftjis_whatwg.rs -/
def shiftjis_whatwg.encode_from_str.loop1 : Expr :=
  (.block
    (.letIn (.bind "code") (.cast (.var "c") .u32)
    (.ite
      (.bin .ge (.var "output_i") (.method (.var "out_buffer") .len []))
      (.block (.seq .break .unit))
      (.ite
        (.bin .le (.var "code") (.int .usize 128))
        (.block
          (.seq (.assign (.index (.var "out_buffer") (.var "output_i")) (.cast (.var "code") .u8))
          (.seq (.opAssign .add (.var "output_i") (.int .usize 1))
          (.seq (.assign (.var "input_i") (.bin .add (.var "offset") (.int .usize 1)))
          .unit))))
        (.ite
          (.bin .eq (.var "code") (.int .usize 165))
          (.block
            (.seq (.assign (.index (.var "out_buffer") (.var "output_i")) (.int .usize 92))
            (.seq (.opAssign .add (.var "output_i") (.int .usize 1))
            (.seq (.assign (.var "input_i") (.bin .add (.var "offset") (.int .usize 1)))
            .unit))))
          (.ite
            (.bin .eq (.var "code") (.int .usize 8254))
            (.block
              (.seq (.assign (.index (.var "out_buffer") (.var "output_i")) (.int .usize 126))
              (.seq (.opAssign .add (.var "output_i") (.int .usize 1))
              (.seq (.assign (.var "input_i") (.bin .add (.var "offset") (.int .usize 1)))
              .unit))))
            (.ite
              (.bin
                .land
                (.bin .ge (.var "code") (.int .usize 65377))
                (.bin .le (.var "code") (.int .usize 65439)))
              (.block
                (.seq
                  (.assign
                    (.index (.var "out_buffer") (.var "output_i"))
                    (.cast
                      (.bin .add (.bin .sub (.var "code") (.int .usize 65377)) (.int .usize 161))
                      .u8))
                (.seq (.opAssign .add (.var "output_i") (.int .usize 1))
                (.seq (.assign (.var "input_i") (.bin .add (.var "offset") (.int .usize 1)))
                .unit))))
              (.ite
                (.bin
                  .lt
                  (.bin .add (.var "output_i") (.int .usize 1))
                  (.method (.var "out_buffer") .len []))
                (.block
                  (.letIn (.bind "jis_bytes")
                    (.ite
                      (.bin
                        .land
                        (.bin .ge (.var "code") (.int .usize 57344))
                        (.bin .le (.var "code") (.int .usize 59223)))
                      (.block
                        (.letIn (.bind "jis_ptr")
                          (.bin
                            .add
                            (.bin .sub (.var "code") (.int .usize 57344))
                            (.int .usize 8836))
                        (.letIn (.bind "lead") (.bin .div (.var "jis_ptr") (.int .usize 188))
                        (.letIn (.bind "lead_offset")
                          (.ite
                            (.bin .lt (.var "lead") (.int .usize 31))
                            (.block (.int .usize 129))
                            (.block (.int .usize 193)))
                        (.letIn (.bind "trail") (.bin .rem (.var "jis_ptr") (.int .usize 188))
                        (.letIn (.bind "trail_offset")
                          (.ite
                            (.bin .lt (.var "trail") (.int .usize 63))
                            (.block (.int .usize 64))
                            (.block (.int .usize 65)))
                        (.array
                          [(.cast (.bin .add (.var "lead") (.var "lead_offset")) .u8),
                           (.cast (.bin .add (.var "trail") (.var "trail_offset")) .u8)])))))))
                      (.block
                        (.seq
                          (.ite
                            (.bin .eq (.var "code") (.int .usize 8722))
                            (.block (.seq (.assign (.var "code") (.int .usize 65293)) .unit))
                            .unit)
                        (.letIn (.bind "code") (.method (.std .from_u32 (.var "code")) .unwrap [])
                        (.iteLet
                          (.ctor "Ok" [(.bind "ptr_i")])
                          (.method
                            (.var "ENCODE_TABLE")
                            .binary_search_by_key
                            [(.ref (.var "code")), (.closure "x" (.proj (.var "x") 0))])
                          (.block (.proj (.index (.var "ENCODE_TABLE") (.var "ptr_i")) 1))
                          (.block
                            (.seq
                              (.return
                                (.ctor
                                  "Err"
                                  (.struct
                                    "EncodeError"
                                    ["character", "error_range", "output_bytes_written"]
                                    [(.var "c"),
                                     (.tuple
                                       [(.var "offset"),
                                        (.bin
                                          .add
                                          (.var "offset")
                                          (.method (.var "c") .len_utf8 []))]),
                                     (.var "output_i")])))
                            .unit)))))))
                  (.seq
                    (.assign
                      (.index (.var "out_buffer") (.var "output_i"))
                      (.index (.var "jis_bytes") (.int .usize 0)))
                  (.seq
                    (.assign
                      (.index (.var "out_buffer") (.bin .add (.var "output_i") (.int .usize 1)))
                      (.index (.var "jis_bytes") (.int .usize 1)))
                  (.seq (.opAssign .add (.var "output_i") (.int .usize 2))
                  (.seq (.assign (.var "input_i") (.bin .add (.var "offset") (.int .usize 1)))
                  .unit))))))
                (.block (.seq .break .unit))))))))))

/-- A loop body in `encode_from_str`.  src/shiftjis_whatwg.rs -/
def shiftjis_whatwg.encode_from_str.loop2 : Expr :=
  (.block (.seq (.opAssign .add (.var "input_i") (.int .usize 1)) .unit))

/-- The body of `encode_from_str`.  src/shiftjis_whatwg.rs -/
def shiftjis_whatwg.encode_from_str : Expr :=
  (.block
    (.letIn (.bind "input_i") (.int .usize 0)
    (.letIn (.bind "output_i") (.int .usize 0)
    (.seq
      (.forIn
        (.tuple [(.bind "offset"), (.bind "c")])
        (.method (.var "input") .char_indices [])
        shiftjis_whatwg.encode_from_str.loop1)
    (.seq
      (.ite
        (.bin .gt (.var "input_i") (.method (.var "input") .len []))
        (.block (.seq (.assign (.var "input_i") (.method (.var "input") .len [])) .unit))
        (.block
          (.whileDo
            (.not (.method (.var "input") .is_char_boundary [(.var "input_i")]))
            shiftjis_whatwg.encode_from_str.loop2)))
    (.ctor
      "Ok"
      (.tuple [(.ref (.sliceTo (.var "out_buffer") (.var "output_i"))), (.var "input_i")])))))))

/-- A loop body in `decode_to_str`.  src/shiftjis_whatwg.rs -/
def shiftjis_whatwg.decode_to_str.loop1 : Expr :=
  (.block
    (.ite
      (.bin .ge (.var "output_i") (.method (.var "out_buffer") .len []))
      (.block (.seq .break .unit))
      (.ite
        (.bin .le (.var "byte_1") (.int .usize 127))
        (.block
          (.seq (.assign (.index (.var "out_buffer") (.var "output_i")) (.var "byte_1"))
          (.seq (.opAssign .add (.var "output_i") (.int .usize 1))
          (.seq (.opAssign .add (.var "input_i") (.int .usize 1))
          .unit))))
        (.ite
          (.bin .eq (.var "byte_1") (.int .usize 128))
          (.block
            (.ite
              (.bin
                .ge
                (.bin .add (.var "output_i") (.int .usize 1))
                (.method (.var "out_buffer") .len []))
              (.block (.seq .break .unit))
              (.block
                (.seq (.assign (.index (.var "out_buffer") (.var "output_i")) (.int .usize 194))
                (.seq
                  (.assign
                    (.index (.var "out_buffer") (.bin .add (.var "output_i") (.int .usize 1)))
                    (.int .usize 128))
                (.seq (.opAssign .add (.var "output_i") (.int .usize 2))
                (.seq (.opAssign .add (.var "input_i") (.int .usize 1))
                .unit)))))))
          (.block
            (.letIn (.tuple
              [(.bind "string"),
               (.bind "input_consumed")])
              (.ite
                (.bin
                  .land
                  (.bin .ge (.var "byte_1") (.int .usize 161))
                  (.bin .le (.var "byte_1") (.int .usize 223)))
                (.block
                  (.tuple
                    [(.method
                       (.method
                         (.std
                           .from_u32
                           (.bin
                             .sub
                             (.bin .add (.cast (.var "byte_1") .u32) (.int .usize 65377))
                             (.int .usize 161)))
                         .unwrap
                         [])
                       .encode_utf8
                       [(.refMut (.var "buf"))]),
                     (.int .usize 1)]))
                (.ite
                  (.bin
                    .lor
                    (.bin
                      .land
                      (.bin .gt (.var "byte_1") (.int .usize 159))
                      (.bin .lt (.var "byte_1") (.int .usize 224)))
                    (.bin .gt (.var "byte_1") (.int .usize 252)))
                  (.block
                    (.seq
                      (.return
                        (.ctor
                          "Err"
                          (.struct
                            "DecodeError"
                            ["cause", "error_range", "output_bytes_written"]
                            [(.variant "InvalidData"),
                             (.tuple
                               [(.var "input_i"), (.bin .add (.var "input_i") (.int .usize 1))]),
                             (.var "output_i")])))
                    .unit))
                  (.iteLet
                    (.ctor "Some" [(.bind "byte_2")])
                    (.method (.var "itr") .next [])
                    (.block
                      (.seq
                        (.ite
                          (.bin
                            .lor
                            (.bin
                              .lor
                              (.bin .lt (.var "byte_2") (.int .usize 64))
                              (.bin .eq (.var "byte_2") (.int .usize 127)))
                            (.bin .gt (.var "byte_2") (.int .usize 252)))
                          (.block
                            (.seq
                              (.return
                                (.ctor
                                  "Err"
                                  (.struct
                                    "DecodeError"
                                    ["cause", "error_range", "output_bytes_written"]
                                    [(.variant "InvalidData"),
                                     (.tuple
                                       [(.var "input_i"),
                                        (.bin
                                          .add
                                          (.var "input_i")
                                          (.ite
                                            (.bin .le (.var "byte_2") (.int .usize 127))
                                            (.block (.int .usize 1))
                                            (.block (.int .usize 2))))]),
                                     (.var "output_i")])))
                            .unit))
                          .unit)
                      (.letIn (.bind "jis_ptr")
                        (.block
                          (.letIn (.bind "lead_offset")
                            (.ite
                              (.bin .lt (.var "byte_1") (.int .usize 160))
                              (.block (.int .usize 129))
                              (.block (.int .usize 193)))
                          (.letIn (.bind "trail_offset")
                            (.ite
                              (.bin .lt (.var "byte_2") (.int .usize 127))
                              (.block (.int .usize 64))
                              (.block (.int .usize 65)))
                          (.bin
                            .sub
                            (.bin
                              .add
                              (.bin
                                .mul
                                (.bin .sub (.cast (.var "byte_1") .u32) (.var "lead_offset"))
                                (.int .usize 188))
                              (.cast (.var "byte_2") .u32))
                            (.var "trail_offset")))))
                      (.ite
                        (.bin
                          .land
                          (.bin .ge (.var "jis_ptr") (.int .usize 8836))
                          (.bin .le (.var "jis_ptr") (.int .usize 10715)))
                        (.block
                          (.tuple
                            [(.method
                               (.method
                                 (.std
                                   .from_u32
                                   (.bin
                                     .sub
                                     (.bin .add (.var "jis_ptr") (.int .usize 57344))
                                     (.int .usize 8836)))
                                 .unwrap
                                 [])
                               .encode_utf8
                               [(.refMut (.var "buf"))]),
                             (.int .usize 2)]))
                        (.ite
                          (.bin
                            .lor
                            (.bin
                              .ge
                              (.cast (.var "jis_ptr") .usize)
                              (.method (.var "DECODE_TABLE") .len []))
                            (.bin
                              .eq
                              (.index (.var "DECODE_TABLE") (.cast (.var "jis_ptr") .usize))
                              (.char (Char.ofNat 0xFFFD))))
                          (.block
                            (.seq
                              (.return
                                (.ctor
                                  "Err"
                                  (.struct
                                    "DecodeError"
                                    ["cause", "error_range", "output_bytes_written"]
                                    [(.variant "InvalidData"),
                                     (.tuple
                                       [(.var "input_i"),
                                        (.bin
                                          .add
                                          (.var "input_i")
                                          (.ite
                                            (.bin .le (.var "byte_2") (.int .usize 127))
                                            (.block (.int .usize 1))
                                            (.block (.int .usize 2))))]),
                                     (.var "output_i")])))
                            .unit))
                          (.block
                            (.tuple
                              [(.method
                                 (.index (.var "DECODE_TABLE") (.cast (.var "jis_ptr") .usize))
                                 .encode_utf8
                                 [(.refMut (.var "buf"))]),
                               (.int .usize 2)])))))))
                    (.block
                      (.ite
                        (.not (.var "is_end"))
                        (.block (.seq .break .unit))
                        (.block
                          (.seq
                            (.return
                              (.ctor
                                "Err"
                                (.struct
                                  "DecodeError"
                                  ["cause", "error_range", "output_bytes_written"]
                                  [(.variant "InvalidData"),
                                   (.tuple
                                     [(.var "input_i"),
                                      (.bin .add (.var "input_i") (.int .usize 1))]),
                                   (.var "output_i")])))
                          .unit)))))))
            (.seq
              (.ite
                (.bin
                  .gt
                  (.bin .add (.var "output_i") (.method (.var "string") .len []))
                  (.method (.var "out_buffer") .len []))
                (.block (.seq .break .unit))
                .unit)
            (.seq
              (.method
                (.slice
                  (.var "out_buffer")
                  (.var "output_i")
                  (.bin .add (.var "output_i") (.method (.var "string") .len [])))
                .copy_from_slice
                [(.method (.var "string") .as_bytes [])])
            (.seq (.opAssign .add (.var "input_i") (.var "input_consumed"))
            (.seq (.opAssign .add (.var "output_i") (.method (.var "string") .len []))
            .unit))))))))))

/-- The body of `decode_to_str`.  src/shiftjis_whatwg.rs -/
def shiftjis_whatwg.decode_to_str : Expr :=
  (.block
    (.letIn (.bind "input_i") (.int .usize 0)
    (.letIn (.bind "output_i") (.int .usize 0)
    (.letIn (.bind "buf") (.rep (.int .u8 0) 4)
    (.letIn (.bind "itr") (.method (.var "input") .iter [])
    (.seq
      (.whileLet
        (.ctor "Some" [(.bind "byte_1")])
        (.method (.var "itr") .next [])
        shiftjis_whatwg.decode_to_str.loop1)
    (.ctor
      "Ok"
      (.tuple
        [(.block
           (.std .from_utf8_unchecked (.ref (.sliceTo (.var "out_buffer") (.var "output_i"))))),
         (.var "input_i")]))))))))

/-- src/shiftjis_whatwg.rs -/
def shiftjis_whatwg : List Item :=
  [.include "generated/whatwg/shiftjis_whatwg_tables.rs.inc",
   .fn "encode_from_str" [("input", false), ("out_buffer", true)] shiftjis_whatwg.encode_from_str,
   .fn "decode_to_str"
     [("input", false), ("out_buffer", true), ("is_end", false)]
     shiftjis_whatwg.decode_to_str]

/-- A loop body in `encode_from_str`.  src/big5_whatwg.rs -/
def big5_whatwg.encode_from_str.loop1 : Expr :=
  (.block
    (.letIn (.bind "code") (.cast (.var "c") .u32)
    (.ite
      (.bin .ge (.var "output_i") (.method (.var "out_buffer") .len []))
      (.block (.seq .break .unit))
      (.ite
        (.bin .le (.var "code") (.int .usize 127))
        (.block
          (.seq (.assign (.index (.var "out_buffer") (.var "output_i")) (.cast (.var "code") .u8))
          (.seq (.opAssign .add (.var "output_i") (.int .usize 1))
          (.seq (.assign (.var "input_i") (.bin .add (.var "offset") (.int .usize 1)))
          .unit))))
        (.iteLet
          (.ctor "Ok" [(.bind "ptr_i")])
          (.method
            (.var "ENCODE_TABLE")
            .binary_search_by_key
            [(.ref (.var "c")), (.closure "x" (.proj (.var "x") 0))])
          (.block
            (.ite
              (.bin
                .lt
                (.bin .add (.var "output_i") (.int .usize 1))
                (.method (.var "out_buffer") .len []))
              (.block
                (.seq
                  (.ite
                    (.bin
                      .lor
                      (.bin .eq (.var "code") (.int .usize 202))
                      (.bin .eq (.var "code") (.int .usize 234)))
                    (.block
                      (.iteLet
                        (.ctor "Some" [(.tuple [(.bind "offset2"), (.bind "c2")])])
                        (.method (.method (.var "itr") .clone []) .next [])
                        (.block
                          (.letIn (.bind "code2") (.cast (.var "c2") .u32)
                          (.iteLet
                            (.ctor "Some" [(.bind "bytes")])
                            (.call false "map_grapheme" [(.var "code"), (.var "code2")])
                            (.block
                              (.seq (.method (.var "itr") .next [])
                              (.seq
                                (.assign
                                  (.index (.var "out_buffer") (.var "output_i"))
                                  (.index (.var "bytes") (.int .usize 0)))
                              (.seq
                                (.assign
                                  (.index
                                    (.var "out_buffer")
                                    (.bin .add (.var "output_i") (.int .usize 1)))
                                  (.index (.var "bytes") (.int .usize 1)))
                              (.seq (.opAssign .add (.var "output_i") (.int .usize 2))
                              (.seq
                                (.assign
                                  (.var "input_i")
                                  (.bin .add (.var "offset2") (.int .usize 1)))
                              (.seq .continue
                              .unit)))))))
                            .unit)))
                        (.ite (.not (.var "is_end")) (.block (.seq .break .unit)) .unit)))
                    .unit)
                (.letIn (.bind "big5_bytes") (.proj (.index (.var "ENCODE_TABLE") (.var "ptr_i")) 1)
                (.seq
                  (.assign
                    (.index (.var "out_buffer") (.var "output_i"))
                    (.index (.var "big5_bytes") (.int .usize 0)))
                (.seq
                  (.assign
                    (.index (.var "out_buffer") (.bin .add (.var "output_i") (.int .usize 1)))
                    (.index (.var "big5_bytes") (.int .usize 1)))
                (.seq (.opAssign .add (.var "output_i") (.int .usize 2))
                (.seq (.assign (.var "input_i") (.bin .add (.var "offset") (.int .usize 1)))
                .unit)))))))
              (.block (.seq .break .unit))))
          (.block
            (.seq
              (.return
                (.ctor
                  "Err"
                  (.struct
                    "EncodeError"
                    ["character", "error_range", "output_bytes_written"]
                    [(.var "c"),
                     (.tuple
                       [(.var "offset"),
                        (.bin .add (.var "offset") (.method (.var "c") .len_utf8 []))]),
                     (.var "output_i")])))
            .unit)))))))

/-- A loop body in `encode_from_str`.  src/big5_whatwg.rs -/
def big5_whatwg.encode_from_str.loop2 : Expr :=
  (.block (.seq (.opAssign .add (.var "input_i") (.int .usize 1)) .unit))

/-- The body of `encode_from_str`.  src/big5_whatwg.rs -/
def big5_whatwg.encode_from_str : Expr :=
  (.block
    (.letIn (.bind "input_i") (.int .usize 0)
    (.letIn (.bind "output_i") (.int .usize 0)
    (.letIn (.bind "itr") (.method (.var "input") .char_indices [])
    (.seq
      (.whileLet
        (.ctor "Some" [(.tuple [(.bind "offset"), (.bind "c")])])
        (.method (.var "itr") .next [])
        big5_whatwg.encode_from_str.loop1)
    (.seq
      (.ite
        (.bin .gt (.var "input_i") (.method (.var "input") .len []))
        (.block (.seq (.assign (.var "input_i") (.method (.var "input") .len [])) .unit))
        (.block
          (.whileDo
            (.not (.method (.var "input") .is_char_boundary [(.var "input_i")]))
            big5_whatwg.encode_from_str.loop2)))
    (.ctor
      "Ok"
      (.tuple [(.ref (.sliceTo (.var "out_buffer") (.var "output_i"))), (.var "input_i")]))))))))

/-- The body of `map_grapheme`.  src/big5_whatwg.rs -/
def big5_whatwg.map_grapheme : Expr :=
  (.block
    (.matchOn
      (.tuple [(.var "a"), (.var "b")])
      [(.tuple [(.int 202), (.int 772)]),
       (.tuple [(.int 202), (.int 780)]),
       (.tuple [(.int 234), (.int 772)]),
       (.tuple [(.int 234), (.int 780)]),
       .wild]
      [(.ctor "Some" (.array [(.int .usize 136), (.int .usize 98)])),
       (.ctor "Some" (.array [(.int .usize 136), (.int .usize 100)])),
       (.ctor "Some" (.array [(.int .usize 136), (.int .usize 163)])),
       (.ctor "Some" (.array [(.int .usize 136), (.int .usize 165)])),
       (.variant "None")]))

/-- A loop body in `decode_to_str`.  src/big5_whatwg.rs -/
def big5_whatwg.decode_to_str.loop1 : Expr :=
  (.block
    (.ite
      (.bin .ge (.var "output_i") (.method (.var "out_buffer") .len []))
      (.block (.seq .break .unit))
      (.ite
        (.bin .le (.var "byte_1") (.int .usize 127))
        (.block
          (.seq (.assign (.index (.var "out_buffer") (.var "output_i")) (.var "byte_1"))
          (.seq (.opAssign .add (.var "output_i") (.int .usize 1))
          (.seq (.opAssign .add (.var "input_i") (.int .usize 1))
          .unit))))
        (.ite
          (.bin
            .lor
            (.bin .eq (.var "byte_1") (.int .usize 128))
            (.bin .eq (.var "byte_1") (.int .usize 255)))
          (.block
            (.seq
              (.return
                (.ctor
                  "Err"
                  (.struct
                    "DecodeError"
                    ["cause", "error_range", "output_bytes_written"]
                    [(.variant "InvalidData"),
                     (.tuple [(.var "input_i"), (.bin .add (.var "input_i") (.int .usize 1))]),
                     (.var "output_i")])))
            .unit))
          (.iteLet
            (.ctor "Some" [(.bind "byte_2")])
            (.method (.var "itr") .next [])
            (.block
              (.seq
                (.ite
                  (.bin
                    .lor
                    (.bin
                      .lor
                      (.bin .lt (.var "byte_2") (.int .usize 64))
                      (.bin .gt (.var "byte_2") (.int .usize 254)))
                    (.bin
                      .land
                      (.bin .gt (.var "byte_2") (.int .usize 126))
                      (.bin .lt (.var "byte_2") (.int .usize 161))))
                  (.block
                    (.seq
                      (.return
                        (.ctor
                          "Err"
                          (.struct
                            "DecodeError"
                            ["cause", "error_range", "output_bytes_written"]
                            [(.variant "InvalidData"),
                             (.tuple
                               [(.var "input_i"),
                                (.bin
                                  .add
                                  (.var "input_i")
                                  (.ite
                                    (.bin .le (.var "byte_2") (.int .usize 127))
                                    (.block (.int .usize 1))
                                    (.block (.int .usize 2))))]),
                             (.var "output_i")])))
                    .unit))
                  .unit)
              (.letIn (.bind "big5_ptr")
                (.block
                  (.letIn (.bind "lead")
                    (.bin
                      .mul
                      (.bin .sub (.cast (.var "byte_1") .usize) (.int .usize 129))
                      (.int .usize 157))
                  (.letIn (.bind "trail")
                    (.ite
                      (.bin .lt (.var "byte_2") (.int .usize 127))
                      (.block (.bin .sub (.cast (.var "byte_2") .usize) (.int .usize 64)))
                      (.block (.bin .sub (.cast (.var "byte_2") .usize) (.int .usize 98))))
                  (.bin .add (.var "lead") (.var "trail")))))
              (.letIn (.bind "string")
                (.ite
                  (.bin
                    .lor
                    (.bin .ge (.var "big5_ptr") (.method (.var "DECODE_TABLE") .len []))
                    (.bin
                      .eq
                      (.index (.var "DECODE_TABLE") (.var "big5_ptr"))
                      (.char (Char.ofNat 0xFFFD))))
                  (.block
                    (.matchOn
                      (.var "big5_ptr")
                      [(.int 1133), (.int 1135), (.int 1164), (.int 1166), .wild]
                      [(.str [(Char.ofNat 0xCA), (Char.ofNat 0x304)]),
                       (.str [(Char.ofNat 0xCA), (Char.ofNat 0x30C)]),
                       (.str [(Char.ofNat 0xEA), (Char.ofNat 0x304)]),
                       (.str [(Char.ofNat 0xEA), (Char.ofNat 0x30C)]),
                       (.block
                         (.seq
                           (.return
                             (.ctor
                               "Err"
                               (.struct
                                 "DecodeError"
                                 ["cause", "error_range", "output_bytes_written"]
                                 [(.variant "InvalidData"),
                                  (.tuple
                                    [(.var "input_i"),
                                     (.bin
                                       .add
                                       (.var "input_i")
                                       (.ite
                                         (.bin .le (.var "byte_2") (.int .usize 127))
                                         (.block (.int .usize 1))
                                         (.block (.int .usize 2))))]),
                                  (.var "output_i")])))
                         .unit))]))
                  (.block
                    (.method
                      (.index (.var "DECODE_TABLE") (.var "big5_ptr"))
                      .encode_utf8
                      [(.refMut (.var "buf"))])))
              (.seq
                (.ite
                  (.bin
                    .gt
                    (.bin .add (.var "output_i") (.method (.var "string") .len []))
                    (.method (.var "out_buffer") .len []))
                  (.block (.seq .break .unit))
                  .unit)
              (.seq
                (.method
                  (.slice
                    (.var "out_buffer")
                    (.var "output_i")
                    (.bin .add (.var "output_i") (.method (.var "string") .len [])))
                  .copy_from_slice
                  [(.method (.var "string") .as_bytes [])])
              (.seq (.opAssign .add (.var "input_i") (.int .usize 2))
              (.seq (.opAssign .add (.var "output_i") (.method (.var "string") .len []))
              .unit))))))))
            (.block
              (.ite
                (.not (.var "is_end"))
                (.block (.seq .break .unit))
                (.block
                  (.seq
                    (.return
                      (.ctor
                        "Err"
                        (.struct
                          "DecodeError"
                          ["cause", "error_range", "output_bytes_written"]
                          [(.variant "InvalidData"),
                           (.tuple
                             [(.var "input_i"), (.bin .add (.var "input_i") (.int .usize 1))]),
                           (.var "output_i")])))
                  .unit)))))))))

/-- The body of `decode_to_str`.  src/big5_whatwg.rs -/
def big5_whatwg.decode_to_str : Expr :=
  (.block
    (.letIn (.bind "input_i") (.int .usize 0)
    (.letIn (.bind "output_i") (.int .usize 0)
    (.letIn (.bind "buf") (.rep (.int .u8 0) 4)
    (.letIn (.bind "itr") (.method (.var "input") .iter [])
    (.seq
      (.whileLet
        (.ctor "Some" [(.bind "byte_1")])
        (.method (.var "itr") .next [])
        big5_whatwg.decode_to_str.loop1)
    (.ctor
      "Ok"
      (.tuple
        [(.block
           (.std .from_utf8_unchecked (.ref (.sliceTo (.var "out_buffer") (.var "output_i"))))),
         (.var "input_i")]))))))))

/-- src/big5_whatwg.rs -/
def big5_whatwg : List Item :=
  [.include "generated/whatwg/big5_whatwg_tables.rs.inc",
   .fn "encode_from_str"
     [("input", false), ("out_buffer", true), ("is_end", false)]
     big5_whatwg.encode_from_str,
   .fn "map_grapheme" [("a", false), ("b", false)] big5_whatwg.map_grapheme,
   .fn "decode_to_str"
     [("input", false), ("out_buffer", true), ("is_end", false)]
     big5_whatwg.decode_to_str]

/-- The body of `encode_from_str`.  src/single_byte.rs -/
def single_byte.ascii.encode_from_str : Expr :=
  (.block
    (.call
      false
      "ascii_ext_encode_from_str"
      [(.ref (.array [])), (.var "input"), (.var "out_buffer")]))

/-- The body of `decode_to_str`.  src/single_byte.rs -/
def single_byte.ascii.decode_to_str : Expr :=
  (.block
    (.call
      false
      "ascii_ext_decode_to_str"
      [(.ref (.rep (.char (Char.ofNat 0xFFFD)) 128)), (.var "input"), (.var "out_buffer")]))

/-- A loop body in `ascii_ext_encode_from_str`.  src/single_byte.rs -/
def single_byte.ascii_ext_encode_from_str.loop1 : Expr :=
  (.block
    (.seq
      (.ite
        (.bin .ge (.var "output_i") (.method (.var "output") .len []))
        (.block (.seq .break .unit))
        .unit)
    (.ite
      (.bin .le (.cast (.var "c") .u32) (.int .usize 127))
      (.block
        (.seq (.assign (.index (.var "output") (.var "output_i")) (.cast (.var "c") .u8))
        (.seq (.opAssign .add (.var "output_i") (.int .usize 1))
        (.seq (.assign (.var "input_i") (.bin .add (.var "offset") (.int .usize 1)))
        .unit))))
      (.iteLet
        (.ctor "Ok" [(.bind "i")])
        (.method
          (.var "table")
          .binary_search_by_key
          [(.ref (.var "c")), (.closure "x" (.proj (.var "x") 0))])
        (.block
          (.seq
            (.assign
              (.index (.var "output") (.var "output_i"))
              (.proj (.index (.var "table") (.var "i")) 1))
          (.seq (.opAssign .add (.var "output_i") (.int .usize 1))
          (.seq (.assign (.var "input_i") (.bin .add (.var "offset") (.int .usize 1)))
          .unit))))
        (.block
          (.seq
            (.return
              (.ctor
                "Err"
                (.struct
                  "EncodeError"
                  ["character", "error_range", "output_bytes_written"]
                  [(.var "c"),
                   (.tuple
                     [(.var "offset"),
                      (.bin .add (.var "offset") (.method (.var "c") .len_utf8 []))]),
                   (.var "output_i")])))
          .unit))))))

/-- A loop body in `ascii_ext_encode_from_str`.  src/single_byte.rs -/
def single_byte.ascii_ext_encode_from_str.loop2 : Expr :=
  (.block (.seq (.opAssign .add (.var "input_i") (.int .usize 1)) .unit))

/-- The body of `ascii_ext_encode_from_str`.  src/single_byte.rs -/
def single_byte.ascii_ext_encode_from_str : Expr :=
  (.block
    (.letIn (.bind "input_i") (.int .usize 0)
    (.letIn (.bind "output_i") (.int .usize 0)
    (.seq
      (.forIn
        (.tuple [(.bind "offset"), (.bind "c")])
        (.method (.var "input") .char_indices [])
        single_byte.ascii_ext_encode_from_str.loop1)
    (.seq
      (.ite
        (.bin .gt (.var "input_i") (.method (.var "input") .len []))
        (.block (.seq (.assign (.var "input_i") (.method (.var "input") .len [])) .unit))
        (.block
          (.whileDo
            (.not (.method (.var "input") .is_char_boundary [(.var "input_i")]))
            single_byte.ascii_ext_encode_from_str.loop2)))
    (.ctor
      "Ok"
      (.tuple [(.ref (.sliceTo (.var "output") (.var "output_i"))), (.var "input_i")])))))))

/-- A loop body in `ascii_ext_decode_to_str`.  src/single_byte.rs -/
def single_byte.ascii_ext_decode_to_str.loop1 : Expr :=
  (.block
    (.ite
      (.bin .lt (.var "byte") (.int .usize 128))
      (.block
        (.seq
          (.ite
            (.bin .ge (.var "output_i") (.method (.var "output") .len []))
            (.block (.seq .break .unit))
            .unit)
        (.seq (.assign (.index (.var "output") (.var "output_i")) (.var "byte"))
        (.seq (.opAssign .add (.var "input_i") (.int .usize 1))
        (.seq (.opAssign .add (.var "output_i") (.int .usize 1))
        .unit)))))
      (.block
        (.letIn (.bind "code")
          (.index (.var "table") (.bin .sub (.cast (.var "byte") .usize) (.int .usize 128)))
        (.seq
          (.ite
            (.bin .eq (.var "code") (.char (Char.ofNat 0xFFFD)))
            (.block
              (.seq
                (.return
                  (.ctor
                    "Err"
                    (.struct
                      "DecodeError"
                      ["cause", "error_range", "output_bytes_written"]
                      [(.variant "InvalidData"),
                       (.tuple [(.var "input_i"), (.bin .add (.var "input_i") (.int .usize 1))]),
                       (.var "output_i")])))
              .unit))
            .unit)
        (.letIn (.bind "buf") (.rep (.int .u8 0) 4)
        (.letIn (.bind "s") (.method (.var "code") .encode_utf8 [(.refMut (.var "buf"))])
        (.seq
          (.ite
            (.bin
              .gt
              (.bin .add (.var "output_i") (.method (.var "s") .len []))
              (.method (.var "output") .len []))
            (.block (.seq .break .unit))
            .unit)
        (.seq
          (.method
            (.slice
              (.var "output")
              (.var "output_i")
              (.bin .add (.var "output_i") (.method (.var "s") .len [])))
            .copy_from_slice
            [(.method (.var "s") .as_bytes [])])
        (.seq (.opAssign .add (.var "input_i") (.int .usize 1))
        (.seq (.opAssign .add (.var "output_i") (.method (.var "s") .len []))
        .unit)))))))))))

/-- The body of `ascii_ext_decode_to_str`.  src/single_byte.rs -/
def single_byte.ascii_ext_decode_to_str : Expr :=
  (.block
    (.letIn (.bind "input_i") (.int .usize 0)
    (.letIn (.bind "output_i") (.int .usize 0)
    (.seq
      (.forIn
        (.bind "byte")
        (.method (.var "input") .iter [])
        single_byte.ascii_ext_decode_to_str.loop1)
    (.ctor
      "Ok"
      (.tuple
        [(.block (.std .from_utf8_unchecked (.ref (.sliceTo (.var "output") (.var "output_i"))))),
         (.var "input_i")]))))))

/-- src/single_byte.rs -/
def single_byte : List Item :=
  [.mod "ascii"
     [.useSuper,
      .fn "encode_from_str"
        [("input", false), ("out_buffer", true)]
        single_byte.ascii.encode_from_str,
      .fn "decode_to_str" [("input", false), ("out_buffer", true)] single_byte.ascii.decode_to_str],
   .mod "ibm_866" [.include "generated/single_byte/ibm-cp866_tables.rs.inc"],
   .mod "iso_8859_1" [.include "generated/single_byte/iso-8859-1_tables.rs.inc"],
   .mod "iso_8859_2" [.include "generated/single_byte/iso-8859-2_tables.rs.inc"],
   .mod "iso_8859_3" [.include "generated/single_byte/iso-8859-3_tables.rs.inc"],
   .mod "iso_8859_4" [.include "generated/single_byte/iso-8859-4_tables.rs.inc"],
   .mod "iso_8859_5" [.include "generated/single_byte/iso-8859-5_tables.rs.inc"],
   .mod "iso_8859_6" [.include "generated/single_byte/iso-8859-6_tables.rs.inc"],
   .mod "iso_8859_7" [.include "generated/single_byte/iso-8859-7_tables.rs.inc"],
   .mod "iso_8859_8" [.include "generated/single_byte/iso-8859-8_tables.rs.inc"],
   .mod "iso_8859_9" [.include "generated/single_byte/iso-8859-9_tables.rs.inc"],
   .mod "iso_8859_10" [.include "generated/single_byte/iso-8859-10_tables.rs.inc"],
   .mod "iso_8859_11" [.include "generated/single_byte/iso-8859-11_tables.rs.inc"],
   .mod "iso_8859_13" [.include "generated/single_byte/iso-8859-13_tables.rs.inc"],
   .mod "iso_8859_14" [.include "generated/single_byte/iso-8859-14_tables.rs.inc"],
   .mod "iso_8859_15" [.include "generated/single_byte/iso-8859-15_tables.rs.inc"],
   .mod "iso_8859_16" [.include "generated/single_byte/iso-8859-16_tables.rs.inc"],
   .mod "koi8_r" [.include "generated/single_byte/koi8-r_tables.rs.inc"],
   .mod "koi8_u" [.include "generated/single_byte/koi8-u_tables.rs.inc"],
   .mod "mac_roman" [.include "generated/single_byte/mac-roman_tables.rs.inc"],
   .mod "mac_cyrillic" [.include "generated/single_byte/mac-cyrillic_tables.rs.inc"],
   .mod "windows_874" [.include "generated/single_byte/windows-cp874_tables.rs.inc"],
   .mod "windows_1250" [.include "generated/single_byte/windows-cp1250_tables.rs.inc"],
   .mod "windows_1251" [.include "generated/single_byte/windows-cp1251_tables.rs.inc"],
   .mod "windows_1252" [.include "generated/single_byte/windows-cp1252_tables.rs.inc"],
   .mod "windows_1253" [.include "generated/single_byte/windows-cp1253_tables.rs.inc"],
   .mod "windows_1254" [.include "generated/single_byte/windows-cp1254_tables.rs.inc"],
   .mod "windows_1255" [.include "generated/single_byte/windows-cp1255_tables.rs.inc"],
   .mod "windows_1256" [.include "generated/single_byte/windows-cp1256_tables.rs.inc"],
   .mod "windows_1257" [.include "generated/single_byte/windows-cp1257_tables.rs.inc"],
   .mod "windows_1258" [.include "generated/single_byte/windows-cp1258_tables.rs.inc"],
   .fn "ascii_ext_encode_from_str"
     [("table", false), ("input", false), ("output", true)]
     single_byte.ascii_ext_encode_from_str,
   .fn "ascii_ext_decode_to_str"
     [("table", false), ("input", false), ("output", true)]
     single_byte.ascii_ext_decode_to_str]

/-- The body of `main`.  examples/wrapper.rs -/
def wrapper.main : Expr :=
  (.block
    (.letIn (.bind "text")
      (.str ['H', 'e', 'l', 'l', 'o', (Char.ofNat 0x20), 'w', 'o', 'r', 'l', 'd', '!'])
    (.letIn (.bind "buf") (.rep (.int .u8 0) 100)
    (.letIn (.bind "utf16")
      (.proj
        (.method
          (.call
            false
            "encode_from_str"
            [(.variant "Utf16BE"), (.var "text"), (.refMut (.var "buf")), (.bool true)])
          .unwrap
          [])
        0)
    (.letIn (.bind "buf_2") (.rep (.int .u8 0) 100)
    (.letIn (.bind "text_2")
      (.proj
        (.method
          (.call
            false
            "decode_to_str"
            [(.variant "Utf16BE"), (.var "utf16"), (.refMut (.var "buf_2")), (.bool true)])
          .unwrap
          [])
        0)
    (.seq (.assertEq (.var "text") (.var "text_2"))
    .unit)))))))

/-- The body of `encode_from_str`.  examples/wrapper.rs -/
def wrapper.encode_from_str : Expr :=
  (.block
    (.matchOn
      (.var "output_encoding")
      [(.ctor "Utf8" []),
       (.ctor "Utf16BE" []),
       (.ctor "Utf16LE" []),
       (.ctor "Utf32BE" []),
       (.ctor "Utf32LE" []),
       (.ctor "Big5WHATWG" []),
       (.ctor "ShiftJISWHATWG" []),
       (.ctor "Ascii" []),
       (.ctor "Ibm866" []),
       (.ctor "Iso8859_1" []),
       (.ctor "Iso8859_2" []),
       (.ctor "Iso8859_3" []),
       (.ctor "Iso8859_4" []),
       (.ctor "Iso8859_5" []),
       (.ctor "Iso8859_6" []),
       (.ctor "Iso8859_7" []),
       (.ctor "Iso8859_8" []),
       (.ctor "Iso8859_9" []),
       (.ctor "Iso8859_10" []),
       (.ctor "Iso8859_11" []),
       (.ctor "Iso8859_13" []),
       (.ctor "Iso8859_14" []),
       (.ctor "Iso8859_15" []),
       (.ctor "Iso8859_16" []),
       (.ctor "Koi8R" []),
       (.ctor "Koi8U" []),
       (.ctor "Macintosh" []),
       (.ctor "MacCyrillic" []),
       (.ctor "Windows874" []),
       (.ctor "Windows1250" []),
       (.ctor "Windows1251" []),
       (.ctor "Windows1252" []),
       (.ctor "Windows1253" []),
       (.ctor "Windows1254" []),
       (.ctor "Windows1255" []),
       (.ctor "Windows1256" []),
       (.ctor "Windows1257" []),
       (.ctor "Windows1258" [])]
      [(.callIn "utf8" "encode_from_str" [(.var "input"), (.var "output")]),
       (.callIn "utf16_be" "encode_from_str" [(.var "input"), (.var "output")]),
       (.callIn "utf16_le" "encode_from_str" [(.var "input"), (.var "output")]),
       (.callIn "utf32_be" "encode_from_str" [(.var "input"), (.var "output")]),
       (.callIn "utf32_le" "encode_from_str" [(.var "input"), (.var "output")]),
       (.callIn "big5_whatwg" "encode_from_str" [(.var "input"), (.var "output"), (.var "is_end")]),
       (.callIn "shiftjis_whatwg" "encode_from_str" [(.var "input"), (.var "output")]),
       (.callIn "ascii" "encode_from_str" [(.var "input"), (.var "output")]),
       (.callIn "ibm_866" "encode_from_str" [(.var "input"), (.var "output")]),
       (.callIn "iso_8859_1" "encode_from_str" [(.var "input"), (.var "output")]),
       (.callIn "iso_8859_2" "encode_from_str" [(.var "input"), (.var "output")]),
       (.callIn "iso_8859_3" "encode_from_str" [(.var "input"), (.var "output")]),
       (.callIn "iso_8859_4" "encode_from_str" [(.var "input"), (.var "output")]),
       (.callIn "iso_8859_5" "encode_from_str" [(.var "input"), (.var "output")]),
       (.callIn "iso_8859_6" "encode_from_str" [(.var "input"), (.var "output")]),
       (.callIn "iso_8859_7" "encode_from_str" [(.var "input"), (.var "output")]),
       (.callIn "iso_8859_8" "encode_from_str" [(.var "input"), (.var "output")]),
       (.callIn "iso_8859_9" "encode_from_str" [(.var "input"), (.var "output")]),
       (.callIn "iso_8859_10" "encode_from_str" [(.var "input"), (.var "output")]),
       (.callIn "iso_8859_11" "encode_from_str" [(.var "input"), (.var "output")]),
       (.callIn "iso_8859_13" "encode_from_str" [(.var "input"), (.var "output")]),
       (.callIn "iso_8859_14" "encode_from_str" [(.var "input"), (.var "output")]),
       (.callIn "iso_8859_15" "encode_from_str" [(.var "input"), (.var "output")]),
       (.callIn "iso_8859_16" "encode_from_str" [(.var "input"), (.var "output")]),
       (.callIn "koi8_r" "encode_from_str" [(.var "input"), (.var "output")]),
       (.callIn "koi8_u" "encode_from_str" [(.var "input"), (.var "output")]),
       (.callIn "mac_roman" "encode_from_str" [(.var "input"), (.var "output")]),
       (.callIn "mac_cyrillic" "encode_from_str" [(.var "input"), (.var "output")]),
       (.callIn "windows_874" "encode_from_str" [(.var "input"), (.var "output")]),
       (.callIn "windows_1250" "encode_from_str" [(.var "input"), (.var "output")]),
       (.callIn "windows_1251" "encode_from_str" [(.var "input"), (.var "output")]),
       (.callIn "windows_1252" "encode_from_str" [(.var "input"), (.var "output")]),
       (.callIn "windows_1253" "encode_from_str" [(.var "input"), (.var "output")]),
       (.callIn "windows_1254" "encode_from_str" [(.var "input"), (.var "output")]),
       (.callIn "windows_1255" "encode_from_str" [(.var "input"), (.var "output")]),
       (.callIn "windows_1256" "encode_from_str" [(.var "input"), (.var "output")]),
       (.callIn "windows_1257" "encode_from_str" [(.var "input"), (.var "output")]),
       (.callIn "windows_1258" "encode_from_str" [(.var "input"), (.var "output")])]))

/-- The body of `decode_to_str`.  examples/wrapper.rs -/
def wrapper.decode_to_str : Expr :=
  (.block
    (.matchOn
      (.var "input_encoding")
      [(.ctor "Utf8" []),
       (.ctor "Utf16BE" []),
       (.ctor "Utf16LE" []),
       (.ctor "Utf32BE" []),
       (.ctor "Utf32LE" []),
       (.ctor "Big5WHATWG" []),
       (.ctor "ShiftJISWHATWG" []),
       (.ctor "Ascii" []),
       (.ctor "Ibm866" []),
       (.ctor "Iso8859_1" []),
       (.ctor "Iso8859_2" []),
       (.ctor "Iso8859_3" []),
       (.ctor "Iso8859_4" []),
       (.ctor "Iso8859_5" []),
       (.ctor "Iso8859_6" []),
       (.ctor "Iso8859_7" []),
       (.ctor "Iso8859_8" []),
       (.ctor "Iso8859_9" []),
       (.ctor "Iso8859_10" []),
       (.ctor "Iso8859_11" []),
       (.ctor "Iso8859_13" []),
       (.ctor "Iso8859_14" []),
       (.ctor "Iso8859_15" []),
       (.ctor "Iso8859_16" []),
       (.ctor "Koi8R" []),
       (.ctor "Koi8U" []),
       (.ctor "Macintosh" []),
       (.ctor "MacCyrillic" []),
       (.ctor "Windows874" []),
       (.ctor "Windows1250" []),
       (.ctor "Windows1251" []),
       (.ctor "Windows1252" []),
       (.ctor "Windows1253" []),
       (.ctor "Windows1254" []),
       (.ctor "Windows1255" []),
       (.ctor "Windows1256" []),
       (.ctor "Windows1257" []),
       (.ctor "Windows1258" [])]
      [(.callIn "utf8" "decode_to_str" [(.var "input"), (.var "output"), (.var "is_end")]),
       (.callIn "utf16_be" "decode_to_str" [(.var "input"), (.var "output"), (.var "is_end")]),
       (.callIn "utf16_le" "decode_to_str" [(.var "input"), (.var "output"), (.var "is_end")]),
       (.callIn "utf32_be" "decode_to_str" [(.var "input"), (.var "output"), (.var "is_end")]),
       (.callIn "utf32_le" "decode_to_str" [(.var "input"), (.var "output"), (.var "is_end")]),
       (.callIn "big5_whatwg" "decode_to_str" [(.var "input"), (.var "output"), (.var "is_end")]),
       (.callIn
         "shiftjis_whatwg"
         "decode_to_str"
         [(.var "input"), (.var "output"), (.var "is_end")]),
       (.callIn "ascii" "decode_to_str" [(.var "input"), (.var "output")]),
       (.callIn "ibm_866" "decode_to_str" [(.var "input"), (.var "output")]),
       (.callIn "iso_8859_1" "decode_to_str" [(.var "input"), (.var "output")]),
       (.callIn "iso_8859_2" "decode_to_str" [(.var "input"), (.var "output")]),
       (.callIn "iso_8859_3" "decode_to_str" [(.var "input"), (.var "output")]),
       (.callIn "iso_8859_4" "decode_to_str" [(.var "input"), (.var "output")]),
       (.callIn "iso_8859_5" "decode_to_str" [(.var "input"), (.var "output")]),
       (.callIn "iso_8859_6" "decode_to_str" [(.var "input"), (.var "output")]),
       (.callIn "iso_8859_7" "decode_to_str" [(.var "input"), (.var "output")]),
       (.callIn "iso_8859_8" "decode_to_str" [(.var "input"), (.var "output")]),
       (.callIn "iso_8859_9" "decode_to_str" [(.var "input"), (.var "output")]),
       (.callIn "iso_8859_10" "decode_to_str" [(.var "input"), (.var "output")]),
       (.callIn "iso_8859_11" "decode_to_str" [(.var "input"), (.var "output")]),
       (.callIn "iso_8859_13" "decode_to_str" [(.var "input"), (.var "output")]),
       (.callIn "iso_8859_14" "decode_to_str" [(.var "input"), (.var "output")]),
       (.callIn "iso_8859_15" "decode_to_str" [(.var "input"), (.var "output")]),
       (.callIn "iso_8859_16" "decode_to_str" [(.var "input"), (.var "output")]),
       (.callIn "koi8_r" "decode_to_str" [(.var "input"), (.var "output")]),
       (.callIn "koi8_u" "decode_to_str" [(.var "input"), (.var "output")]),
       (.callIn "mac_roman" "decode_to_str" [(.var "input"), (.var "output")]),
       (.callIn "mac_cyrillic" "decode_to_str" [(.var "input"), (.var "output")]),
       (.callIn "windows_874" "decode_to_str" [(.var "input"), (.var "output")]),
       (.callIn "windows_1250" "decode_to_str" [(.var "input"), (.var "output")]),
       (.callIn "windows_1251" "decode_to_str" [(.var "input"), (.var "output")]),
       (.callIn "windows_1252" "decode_to_str" [(.var "input"), (.var "output")]),
       (.callIn "windows_1253" "decode_to_str" [(.var "input"), (.var "output")]),
       (.callIn "windows_1254" "decode_to_str" [(.var "input"), (.var "output")]),
       (.callIn "windows_1255" "decode_to_str" [(.var "input"), (.var "output")]),
       (.callIn "windows_1256" "decode_to_str" [(.var "input"), (.var "output")]),
       (.callIn "windows_1257" "decode_to_str" [(.var "input"), (.var "output")]),
       (.callIn "windows_1258" "decode_to_str" [(.var "input"), (.var "output")])]))

/-- examples/wrapper.rs -/
def wrapper : List Item :=
  [(.useGlobs "text_encoding" [["single_byte"], []]),
   .fn "main" [] wrapper.main,
   .fn "encode_from_str"
     [("output_encoding", false), ("input", false), ("output", true), ("is_end", false)]
     wrapper.encode_from_str,
   .fn "decode_to_str"
     [("input_encoding", false), ("input", false), ("output", true), ("is_end", false)]
     wrapper.decode_to_str]

end Verif.Lang.Ast
