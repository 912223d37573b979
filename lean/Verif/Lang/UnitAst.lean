import Verif.Lang.Syntax

/-! Generated by tools/ast.lean.txt: the syntax trees of the sources. -/

namespace Verif.Lang.Ast

/-- An array of integers without a suffix. -/
def ints (ns : List Nat) : Expr := .array (ns.map (.int .usize))

/-- An array of bytes. -/
def u8s (ns : List Nat) : Expr := .array (ns.map (.int .u8))

/-- The body of `encode_01`.  src/utf8.rs -/
def unit_utf8.encode_01 : Expr :=
  (.block
    (.letIn (.bind "text")
      (.str
        [(Char.ofNat 0x3053),
         (Char.ofNat 0x3093),
         (Char.ofNat 0x306B),
         (Char.ofNat 0x3061),
         (Char.ofNat 0x306F),
         (Char.ofNat 0xFF01)])
    (.letIn (.bind "buf") (.rep (.int .u8 0) 2)
    (.letIn (.tuple
      [(.bind "encoded"),
       (.bind "consumed_count")])
      (.method (.call false "encode_from_str" [(.var "text"), (.refMut (.var "buf"))]) .unwrap [])
    (.seq (.assertEq (.var "consumed_count") (.int .usize 0))
    (.seq (.assertEq (.var "encoded") (.ref (.array [])))
    .unit))))))

/-- The body of `encode_02`.  src/utf8.rs -/
def unit_utf8.encode_02 : Expr :=
  (.block
    (.letIn (.bind "text")
      (.str
        [(Char.ofNat 0x3053),
         (Char.ofNat 0x3093),
         (Char.ofNat 0x306B),
         (Char.ofNat 0x3061),
         (Char.ofNat 0x306F),
         (Char.ofNat 0xFF01)])
    (.letIn (.bind "buf") (.rep (.int .u8 0) 3)
    (.letIn (.tuple
      [(.bind "encoded"),
       (.bind "consumed_count")])
      (.method (.call false "encode_from_str" [(.var "text"), (.refMut (.var "buf"))]) .unwrap [])
    (.seq (.assertEq (.var "consumed_count") (.int .usize 3))
    (.seq (.assertEq (.var "encoded") (.ref (ints [227, 129, 147])))
    .unit))))))

/-- The body of `encode_03`.  src/utf8.rs -/
def unit_utf8.encode_03 : Expr :=
  (.block
    (.letIn (.bind "text")
      (.str
        [(Char.ofNat 0x3053),
         (Char.ofNat 0x3093),
         (Char.ofNat 0x306B),
         (Char.ofNat 0x3061),
         (Char.ofNat 0x306F),
         (Char.ofNat 0xFF01)])
    (.letIn (.bind "buf") (.rep (.int .u8 0) 5)
    (.letIn (.tuple
      [(.bind "encoded"),
       (.bind "consumed_count")])
      (.method (.call false "encode_from_str" [(.var "text"), (.refMut (.var "buf"))]) .unwrap [])
    (.seq (.assertEq (.var "consumed_count") (.int .usize 3))
    (.seq (.assertEq (.var "encoded") (.ref (ints [227, 129, 147])))
    .unit))))))

/-- The body of `decode_01`.  src/utf8.rs -/
def unit_utf8.decode_01 : Expr :=
  (.block
    (.letIn (.bind "data")
      (ints
        [227, 129, 147, 227, 130, 147, 227, 129, 171, 227, 129, 161, 227, 129, 175, 239, 188, 129])
    (.letIn (.bind "buf") (.rep (.int .u8 0) 2)
    (.letIn (.tuple
      [(.bind "decoded"),
       (.bind "consumed_count")])
      (.method
        (.call false "decode_to_str" [(.ref (.var "data")), (.refMut (.var "buf")), (.bool true)])
        .unwrap
        [])
    (.seq (.assertEq (.var "consumed_count") (.int .usize 0))
    (.seq (.assertEq (.var "decoded") (.str []))
    .unit))))))

/-- The body of `decode_02`.  src/utf8.rs -/
def unit_utf8.decode_02 : Expr :=
  (.block
    (.letIn (.bind "data")
      (ints
        [227, 129, 147, 227, 130, 147, 227, 129, 171, 227, 129, 161, 227, 129, 175, 239, 188, 129])
    (.letIn (.bind "buf") (.rep (.int .u8 0) 3)
    (.letIn (.tuple
      [(.bind "decoded"),
       (.bind "consumed_count")])
      (.method
        (.call false "decode_to_str" [(.ref (.var "data")), (.refMut (.var "buf")), (.bool true)])
        .unwrap
        [])
    (.seq (.assertEq (.var "consumed_count") (.int .usize 3))
    (.seq (.assertEq (.var "decoded") (.str [(Char.ofNat 0x3053)]))
    .unit))))))

/-- The body of `decode_03`.  src/utf8.rs -/
def unit_utf8.decode_03 : Expr :=
  (.block
    (.letIn (.bind "data")
      (ints
        [227, 129, 147, 227, 130, 147, 227, 129, 171, 227, 129, 161, 227, 129, 175, 239, 188, 129])
    (.letIn (.bind "buf") (.rep (.int .u8 0) 5)
    (.letIn (.tuple
      [(.bind "decoded"),
       (.bind "consumed_count")])
      (.method
        (.call false "decode_to_str" [(.ref (.var "data")), (.refMut (.var "buf")), (.bool true)])
        .unwrap
        [])
    (.seq (.assertEq (.var "consumed_count") (.int .usize 3))
    (.seq (.assertEq (.var "decoded") (.str [(Char.ofNat 0x3053)]))
    .unit))))))

/-- The body of `decode_04`.  src/utf8.rs -/
def unit_utf8.decode_04 : Expr :=
  (.block
    (.letIn (.bind "data")
      (ints [227, 129, 147, 227, 130, 147, 227, 129, 171, 227, 129, 161, 227, 129, 175, 239, 188])
    (.letIn (.bind "buf") (.rep (.int .u8 0) 64)
    (.letIn (.tuple
      [(.bind "decoded"),
       (.bind "consumed_count")])
      (.method
        (.call false "decode_to_str" [(.ref (.var "data")), (.refMut (.var "buf")), (.bool false)])
        .unwrap
        [])
    (.seq (.assertEq (.var "consumed_count") (.int .usize 15))
    (.seq
      (.assertEq
        (.var "decoded")
        (.str
          [(Char.ofNat 0x3053),
           (Char.ofNat 0x3093),
           (Char.ofNat 0x306B),
           (Char.ofNat 0x3061),
           (Char.ofNat 0x306F)]))
    .unit))))))

/-- The body of `decode_05`.  src/utf8.rs -/
def unit_utf8.decode_05 : Expr :=
  (.block
    (.letIn (.bind "data")
      (ints [227, 129, 147, 227, 130, 147, 227, 129, 171, 227, 129, 161, 227, 129, 175, 239])
    (.letIn (.bind "buf") (.rep (.int .u8 0) 64)
    (.letIn (.tuple
      [(.bind "decoded"),
       (.bind "consumed_count")])
      (.method
        (.call false "decode_to_str" [(.ref (.var "data")), (.refMut (.var "buf")), (.bool false)])
        .unwrap
        [])
    (.seq (.assertEq (.var "consumed_count") (.int .usize 15))
    (.seq
      (.assertEq
        (.var "decoded")
        (.str
          [(Char.ofNat 0x3053),
           (Char.ofNat 0x3093),
           (Char.ofNat 0x306B),
           (Char.ofNat 0x3061),
           (Char.ofNat 0x306F)]))
    .unit))))))

/-- The body of `decode_error_01`.  src/utf8.rs -/
def unit_utf8.decode_error_01 : Expr :=
  (.block
    (.letIn (.bind "data")
      (ints
        [128, 129, 147, 227, 130, 147, 227, 129, 171, 227, 129, 161, 227, 129, 175, 239, 188, 129])
    (.letIn (.bind "buf") (.rep (.int .u8 0) 2)
    (.letIn (.bind "error")
      (.call false "decode_to_str" [(.ref (.var "data")), (.refMut (.var "buf")), (.bool true)])
    (.seq
      (.assertEq
        (.var "error")
        (.ctor
          "Err"
          (.struct
            "DecodeError"
            ["cause", "error_range", "output_bytes_written"]
            [(.variant "InvalidData"),
             (.tuple [(.int .usize 0), (.int .usize 3)]),
             (.int .usize 0)])))
    .unit)))))

/-- The body of `decode_error_02`.  src/utf8.rs -/
def unit_utf8.decode_error_02 : Expr :=
  (.block
    (.letIn (.bind "data")
      (ints [227, 129, 227, 130, 147, 227, 129, 171, 227, 129, 161, 227, 129, 175, 239, 188, 129])
    (.letIn (.bind "buf") (.rep (.int .u8 0) 2)
    (.letIn (.bind "error")
      (.call false "decode_to_str" [(.ref (.var "data")), (.refMut (.var "buf")), (.bool true)])
    (.seq
      (.assertEq
        (.var "error")
        (.ctor
          "Err"
          (.struct
            "DecodeError"
            ["cause", "error_range", "output_bytes_written"]
            [(.variant "InvalidData"),
             (.tuple [(.int .usize 0), (.int .usize 2)]),
             (.int .usize 0)])))
    .unit)))))

/-- The body of `decode_error_03`.  src/utf8.rs -/
def unit_utf8.decode_error_03 : Expr :=
  (.block
    (.letIn (.bind "data")
      (ints
        [227, 129, 147, 128, 130, 147, 227, 129, 171, 227, 129, 161, 227, 129, 175, 239, 188, 129])
    (.letIn (.bind "buf") (.rep (.int .u8 0) 64)
    (.letIn (.bind "error")
      (.call false "decode_to_str" [(.ref (.var "data")), (.refMut (.var "buf")), (.bool true)])
    (.seq
      (.assertEq
        (.var "error")
        (.ctor
          "Err"
          (.struct
            "DecodeError"
            ["cause", "error_range", "output_bytes_written"]
            [(.variant "InvalidData"),
             (.tuple [(.int .usize 3), (.int .usize 6)]),
             (.int .usize 3)])))
    .unit)))))

/-- The body of `decode_error_04`.  src/utf8.rs -/
def unit_utf8.decode_error_04 : Expr :=
  (.block
    (.letIn (.bind "data")
      (ints
        [227, 129, 147, 128, 130, 147, 128, 129, 171, 128, 129, 161, 227, 129, 175, 239, 188, 129])
    (.letIn (.bind "buf") (.rep (.int .u8 0) 64)
    (.letIn (.bind "error")
      (.call false "decode_to_str" [(.ref (.var "data")), (.refMut (.var "buf")), (.bool true)])
    (.seq
      (.assertEq
        (.var "error")
        (.ctor
          "Err"
          (.struct
            "DecodeError"
            ["cause", "error_range", "output_bytes_written"]
            [(.variant "InvalidData"),
             (.tuple [(.int .usize 3), (.int .usize 12)]),
             (.int .usize 3)])))
    .unit)))))

/-- The body of `decode_error_05`.  src/utf8.rs -/
def unit_utf8.decode_error_05 : Expr :=
  (.block
    (.letIn (.bind "data")
      (ints
        [227,
         129,
         147,
         248,
         130,
         147,
         147,
         147,
         227,
         129,
         171,
         227,
         129,
         161,
         227,
         129,
         175,
         239,
         188,
         129])
    (.letIn (.bind "buf") (.rep (.int .u8 0) 64)
    (.letIn (.bind "error")
      (.call false "decode_to_str" [(.ref (.var "data")), (.refMut (.var "buf")), (.bool true)])
    (.seq
      (.assertEq
        (.var "error")
        (.ctor
          "Err"
          (.struct
            "DecodeError"
            ["cause", "error_range", "output_bytes_written"]
            [(.variant "InvalidData"),
             (.tuple [(.int .usize 3), (.int .usize 8)]),
             (.int .usize 3)])))
    .unit)))))

/-- The body of `decode_error_06`.  src/utf8.rs -/
def unit_utf8.decode_error_06 : Expr :=
  (.block
    (.letIn (.bind "data")
      (ints
        [227, 129, 147, 237, 160, 128, 227, 129, 171, 227, 129, 161, 227, 129, 175, 239, 188, 129])
    (.letIn (.bind "buf") (.rep (.int .u8 0) 64)
    (.letIn (.bind "error")
      (.call false "decode_to_str" [(.ref (.var "data")), (.refMut (.var "buf")), (.bool true)])
    (.seq
      (.assertEq
        (.var "error")
        (.ctor
          "Err"
          (.struct
            "DecodeError"
            ["cause", "error_range", "output_bytes_written"]
            [(.variant "InvalidData"),
             (.tuple [(.int .usize 3), (.int .usize 6)]),
             (.int .usize 3)])))
    .unit)))))

/-- The body of `decode_error_07`.  src/utf8.rs -/
def unit_utf8.decode_error_07 : Expr :=
  (.block
    (.letIn (.bind "data")
      (ints
        [227, 129, 147, 237, 191, 191, 227, 129, 171, 227, 129, 161, 227, 129, 175, 239, 188, 129])
    (.letIn (.bind "buf") (.rep (.int .u8 0) 64)
    (.letIn (.bind "error")
      (.call false "decode_to_str" [(.ref (.var "data")), (.refMut (.var "buf")), (.bool true)])
    (.seq
      (.assertEq
        (.var "error")
        (.ctor
          "Err"
          (.struct
            "DecodeError"
            ["cause", "error_range", "output_bytes_written"]
            [(.variant "InvalidData"),
             (.tuple [(.int .usize 3), (.int .usize 6)]),
             (.int .usize 3)])))
    .unit)))))

/-- The body of `decode_error_08`.  src/utf8.rs -/
def unit_utf8.decode_error_08 : Expr :=
  (.block
    (.letIn (.bind "data")
      (ints
        [227,
         129,
         147,
         244,
         144,
         128,
         128,
         227,
         129,
         171,
         227,
         129,
         161,
         227,
         129,
         175,
         239,
         188,
         129])
    (.letIn (.bind "buf") (.rep (.int .u8 0) 64)
    (.letIn (.bind "error")
      (.call false "decode_to_str" [(.ref (.var "data")), (.refMut (.var "buf")), (.bool true)])
    (.seq
      (.assertEq
        (.var "error")
        (.ctor
          "Err"
          (.struct
            "DecodeError"
            ["cause", "error_range", "output_bytes_written"]
            [(.variant "InvalidData"),
             (.tuple [(.int .usize 3), (.int .usize 7)]),
             (.int .usize 3)])))
    .unit)))))

/-- The body of `decode_error_09`.  src/utf8.rs -/
def unit_utf8.decode_error_09 : Expr :=
  (.block
    (.letIn (.bind "data")
      (ints [227, 129, 147, 192, 147, 227, 129, 171, 227, 129, 161, 227, 129, 175, 239, 188, 129])
    (.letIn (.bind "buf") (.rep (.int .u8 0) 64)
    (.letIn (.bind "error")
      (.call false "decode_to_str" [(.ref (.var "data")), (.refMut (.var "buf")), (.bool true)])
    (.seq
      (.assertEq
        (.var "error")
        (.ctor
          "Err"
          (.struct
            "DecodeError"
            ["cause", "error_range", "output_bytes_written"]
            [(.variant "InvalidData"),
             (.tuple [(.int .usize 3), (.int .usize 5)]),
             (.int .usize 3)])))
    .unit)))))

/-- The body of `decode_error_10`.  src/utf8.rs -/
def unit_utf8.decode_error_10 : Expr :=
  (.block
    (.letIn (.bind "data")
      (ints [227, 129, 147, 193, 147, 227, 129, 171, 227, 129, 161, 227, 129, 175, 239, 188, 129])
    (.letIn (.bind "buf") (.rep (.int .u8 0) 64)
    (.letIn (.bind "error")
      (.call false "decode_to_str" [(.ref (.var "data")), (.refMut (.var "buf")), (.bool true)])
    (.seq
      (.assertEq
        (.var "error")
        (.ctor
          "Err"
          (.struct
            "DecodeError"
            ["cause", "error_range", "output_bytes_written"]
            [(.variant "InvalidData"),
             (.tuple [(.int .usize 3), (.int .usize 5)]),
             (.int .usize 3)])))
    .unit)))))

/-- The body of `decode_error_11`.  src/utf8.rs -/
def unit_utf8.decode_error_11 : Expr :=
  (.block
    (.letIn (.bind "data")
      (ints [227, 129, 147, 227, 130, 147, 227, 129, 171, 227, 129, 161, 227, 129, 175, 239, 188])
    (.letIn (.bind "buf") (.rep (.int .u8 0) 64)
    (.letIn (.bind "error")
      (.call false "decode_to_str" [(.ref (.var "data")), (.refMut (.var "buf")), (.bool true)])
    (.seq
      (.assertEq
        (.var "error")
        (.ctor
          "Err"
          (.struct
            "DecodeError"
            ["cause", "error_range", "output_bytes_written"]
            [(.variant "InvalidData"),
             (.tuple [(.int .usize 15), (.int .usize 17)]),
             (.int .usize 15)])))
    .unit)))))

/-- The body of `decode_error_12`.  src/utf8.rs -/
def unit_utf8.decode_error_12 : Expr :=
  (.block
    (.letIn (.bind "data")
      (ints [227, 129, 147, 227, 130, 147, 227, 129, 171, 227, 129, 161, 227, 129, 175, 239])
    (.letIn (.bind "buf") (.rep (.int .u8 0) 64)
    (.letIn (.bind "error")
      (.call false "decode_to_str" [(.ref (.var "data")), (.refMut (.var "buf")), (.bool true)])
    (.seq
      (.assertEq
        (.var "error")
        (.ctor
          "Err"
          (.struct
            "DecodeError"
            ["cause", "error_range", "output_bytes_written"]
            [(.variant "InvalidData"),
             (.tuple [(.int .usize 15), (.int .usize 16)]),
             (.int .usize 15)])))
    .unit)))))

/-- the unit tests of src/utf8.rs -/
def unit_utf8 : List Item :=
  [.useSuper,
   .test,
   .fn "encode_01" [] unit_utf8.encode_01,
   .test,
   .fn "encode_02" [] unit_utf8.encode_02,
   .test,
   .fn "encode_03" [] unit_utf8.encode_03,
   .test,
   .fn "decode_01" [] unit_utf8.decode_01,
   .test,
   .fn "decode_02" [] unit_utf8.decode_02,
   .test,
   .fn "decode_03" [] unit_utf8.decode_03,
   .test,
   .fn "decode_04" [] unit_utf8.decode_04,
   .test,
   .fn "decode_05" [] unit_utf8.decode_05,
   .test,
   .fn "decode_error_01" [] unit_utf8.decode_error_01,
   .test,
   .fn "decode_error_02" [] unit_utf8.decode_error_02,
   .test,
   .fn "decode_error_03" [] unit_utf8.decode_error_03,
   .test,
   .fn "decode_error_04" [] unit_utf8.decode_error_04,
   .test,
   .fn "decode_error_05" [] unit_utf8.decode_error_05,
   .test,
   .fn "decode_error_06" [] unit_utf8.decode_error_06,
   .test,
   .fn "decode_error_07" [] unit_utf8.decode_error_07,
   .test,
   .fn "decode_error_08" [] unit_utf8.decode_error_08,
   .test,
   .fn "decode_error_09" [] unit_utf8.decode_error_09,
   .test,
   .fn "decode_error_10" [] unit_utf8.decode_error_10,
   .test,
   .fn "decode_error_11" [] unit_utf8.decode_error_11,
   .test,
   .fn "decode_error_12" [] unit_utf8.decode_error_12]

/-- The body of `encode_01`.  src/utf16_be.rs -/
def unit_utf16_be.encode_01 : Expr :=
  (.block
    (.letIn (.bind "text")
      (.str
        [(Char.ofNat 0x3053),
         (Char.ofNat 0x3093),
         (Char.ofNat 0x306B),
         (Char.ofNat 0x3061),
         (Char.ofNat 0x306F),
         (Char.ofNat 0xFF01)])
    (.letIn (.bind "buf") (.rep (.int .u8 0) 1)
    (.letIn (.tuple
      [(.bind "encoded"),
       (.bind "consumed_count")])
      (.method (.call false "encode_from_str" [(.var "text"), (.refMut (.var "buf"))]) .unwrap [])
    (.seq (.assertEq (.var "consumed_count") (.int .usize 0))
    (.seq (.assertEq (.var "encoded") (.ref (.array [])))
    .unit))))))

/-- The body of `encode_02`.  src/utf16_be.rs -/
def unit_utf16_be.encode_02 : Expr :=
  (.block
    (.letIn (.bind "text")
      (.str
        [(Char.ofNat 0x3053),
         (Char.ofNat 0x3093),
         (Char.ofNat 0x306B),
         (Char.ofNat 0x3061),
         (Char.ofNat 0x306F),
         (Char.ofNat 0xFF01)])
    (.letIn (.bind "buf") (.rep (.int .u8 0) 2)
    (.letIn (.tuple
      [(.bind "encoded"),
       (.bind "consumed_count")])
      (.method (.call false "encode_from_str" [(.var "text"), (.refMut (.var "buf"))]) .unwrap [])
    (.seq (.assertEq (.var "consumed_count") (.int .usize 3))
    (.seq (.assertEq (.var "encoded") (.ref (ints [48, 83])))
    .unit))))))

/-- The body of `encode_03`.  src/utf16_be.rs -/
def unit_utf16_be.encode_03 : Expr :=
  (.block
    (.letIn (.bind "text")
      (.str
        [(Char.ofNat 0x3053),
         (Char.ofNat 0x3093),
         (Char.ofNat 0x306B),
         (Char.ofNat 0x3061),
         (Char.ofNat 0x306F),
         (Char.ofNat 0xFF01)])
    (.letIn (.bind "buf") (.rep (.int .u8 0) 3)
    (.letIn (.tuple
      [(.bind "encoded"),
       (.bind "consumed_count")])
      (.method (.call false "encode_from_str" [(.var "text"), (.refMut (.var "buf"))]) .unwrap [])
    (.seq (.assertEq (.var "consumed_count") (.int .usize 3))
    (.seq (.assertEq (.var "encoded") (.ref (ints [48, 83])))
    .unit))))))

/-- The body of `encode_04`.  src/utf16_be.rs -/
def unit_utf16_be.encode_04 : Expr :=
  (.block
    (.letIn (.bind "text") (.str [(Char.ofNat 0x1F63A), (Char.ofNat 0x1F63C)])
    (.letIn (.bind "buf") (.rep (.int .u8 0) 3)
    (.letIn (.tuple
      [(.bind "encoded"),
       (.bind "consumed_count")])
      (.method (.call false "encode_from_str" [(.var "text"), (.refMut (.var "buf"))]) .unwrap [])
    (.seq (.assertEq (.var "consumed_count") (.int .usize 0))
    (.seq (.assertEq (.var "encoded") (.ref (.array [])))
    .unit))))))

/-- The body of `encode_05`.  src/utf16_be.rs -/
def unit_utf16_be.encode_05 : Expr :=
  (.block
    (.letIn (.bind "text") (.str [(Char.ofNat 0x1F63A), (Char.ofNat 0x1F63C)])
    (.letIn (.bind "buf") (.rep (.int .u8 0) 4)
    (.letIn (.tuple
      [(.bind "encoded"),
       (.bind "consumed_count")])
      (.method (.call false "encode_from_str" [(.var "text"), (.refMut (.var "buf"))]) .unwrap [])
    (.seq (.assertEq (.var "consumed_count") (.int .usize 4))
    (.seq (.assertEq (.var "encoded") (.ref (ints [216, 61, 222, 58])))
    .unit))))))

/-- The body of `encode_06`.  src/utf16_be.rs -/
def unit_utf16_be.encode_06 : Expr :=
  (.block
    (.letIn (.bind "text") (.str [(Char.ofNat 0x1F63A), (Char.ofNat 0x1F63C)])
    (.letIn (.bind "buf") (.rep (.int .u8 0) 7)
    (.letIn (.tuple
      [(.bind "encoded"),
       (.bind "consumed_count")])
      (.method (.call false "encode_from_str" [(.var "text"), (.refMut (.var "buf"))]) .unwrap [])
    (.seq (.assertEq (.var "consumed_count") (.int .usize 4))
    (.seq (.assertEq (.var "encoded") (.ref (ints [216, 61, 222, 58])))
    .unit))))))

/-- The body of `decode_01`.  src/utf16_be.rs -/
def unit_utf16_be.decode_01 : Expr :=
  (.block
    (.letIn (.bind "data") (ints [48, 83, 48, 147, 48, 107, 48, 97, 48, 111, 255, 1])
    (.letIn (.bind "buf") (.rep (.int .u8 0) 2)
    (.letIn (.tuple
      [(.bind "decoded"),
       (.bind "consumed_count")])
      (.method
        (.call false "decode_to_str" [(.ref (.var "data")), (.refMut (.var "buf")), (.bool true)])
        .unwrap
        [])
    (.seq (.assertEq (.var "consumed_count") (.int .usize 0))
    (.seq (.assertEq (.var "decoded") (.str []))
    .unit))))))

/-- The body of `decode_02`.  src/utf16_be.rs -/
def unit_utf16_be.decode_02 : Expr :=
  (.block
    (.letIn (.bind "data") (ints [48, 83, 48, 147, 48, 107, 48, 97, 48, 111, 255, 1])
    (.letIn (.bind "buf") (.rep (.int .u8 0) 3)
    (.letIn (.tuple
      [(.bind "decoded"),
       (.bind "consumed_count")])
      (.method
        (.call false "decode_to_str" [(.ref (.var "data")), (.refMut (.var "buf")), (.bool true)])
        .unwrap
        [])
    (.seq (.assertEq (.var "consumed_count") (.int .usize 2))
    (.seq (.assertEq (.var "decoded") (.str [(Char.ofNat 0x3053)]))
    .unit))))))

/-- The body of `decode_03`.  src/utf16_be.rs -/
def unit_utf16_be.decode_03 : Expr :=
  (.block
    (.letIn (.bind "data") (ints [48, 83, 48, 147, 48, 107, 48, 97, 48, 111, 255, 1])
    (.letIn (.bind "buf") (.rep (.int .u8 0) 5)
    (.letIn (.tuple
      [(.bind "decoded"),
       (.bind "consumed_count")])
      (.method
        (.call false "decode_to_str" [(.ref (.var "data")), (.refMut (.var "buf")), (.bool true)])
        .unwrap
        [])
    (.seq (.assertEq (.var "consumed_count") (.int .usize 2))
    (.seq (.assertEq (.var "decoded") (.str [(Char.ofNat 0x3053)]))
    .unit))))))

/-- The body of `decode_04`.  src/utf16_be.rs -/
def unit_utf16_be.decode_04 : Expr :=
  (.block
    (.letIn (.bind "data") (ints [216, 61, 222, 58, 216, 61, 222, 60])
    (.letIn (.bind "buf") (.rep (.int .u8 0) 3)
    (.letIn (.tuple
      [(.bind "decoded"),
       (.bind "consumed_count")])
      (.method
        (.call false "decode_to_str" [(.ref (.var "data")), (.refMut (.var "buf")), (.bool true)])
        .unwrap
        [])
    (.seq (.assertEq (.var "consumed_count") (.int .usize 0))
    (.seq (.assertEq (.var "decoded") (.str []))
    .unit))))))

/-- The body of `decode_05`.  src/utf16_be.rs -/
def unit_utf16_be.decode_05 : Expr :=
  (.block
    (.letIn (.bind "data") (ints [216, 61, 222, 58, 216, 61, 222, 60])
    (.letIn (.bind "buf") (.rep (.int .u8 0) 4)
    (.letIn (.tuple
      [(.bind "decoded"),
       (.bind "consumed_count")])
      (.method
        (.call false "decode_to_str" [(.ref (.var "data")), (.refMut (.var "buf")), (.bool true)])
        .unwrap
        [])
    (.seq (.assertEq (.var "consumed_count") (.int .usize 4))
    (.seq (.assertEq (.var "decoded") (.str [(Char.ofNat 0x1F63A)]))
    .unit))))))

/-- The body of `decode_06`.  src/utf16_be.rs -/
def unit_utf16_be.decode_06 : Expr :=
  (.block
    (.letIn (.bind "data") (ints [216, 61, 222, 58, 216, 61, 222, 60])
    (.letIn (.bind "buf") (.rep (.int .u8 0) 7)
    (.letIn (.tuple
      [(.bind "decoded"),
       (.bind "consumed_count")])
      (.method
        (.call false "decode_to_str" [(.ref (.var "data")), (.refMut (.var "buf")), (.bool true)])
        .unwrap
        [])
    (.seq (.assertEq (.var "consumed_count") (.int .usize 4))
    (.seq (.assertEq (.var "decoded") (.str [(Char.ofNat 0x1F63A)]))
    .unit))))))

/-- The body of `decode_07`.  src/utf16_be.rs -/
def unit_utf16_be.decode_07 : Expr :=
  (.block
    (.letIn (.bind "data") (ints [216, 61, 222, 58, 216, 61])
    (.letIn (.bind "buf") (.rep (.int .u8 0) 64)
    (.letIn (.tuple
      [(.bind "decoded"),
       (.bind "consumed_count")])
      (.method
        (.call false "decode_to_str" [(.ref (.var "data")), (.refMut (.var "buf")), (.bool false)])
        .unwrap
        [])
    (.seq (.assertEq (.var "consumed_count") (.int .usize 4))
    (.seq (.assertEq (.var "decoded") (.str [(Char.ofNat 0x1F63A)]))
    .unit))))))

/-- The body of `decode_08`.  src/utf16_be.rs -/
def unit_utf16_be.decode_08 : Expr :=
  (.block
    (.letIn (.bind "data") (ints [216, 61, 222, 58, 216, 61, 222])
    (.letIn (.bind "buf") (.rep (.int .u8 0) 64)
    (.letIn (.tuple
      [(.bind "decoded"),
       (.bind "consumed_count")])
      (.method
        (.call false "decode_to_str" [(.ref (.var "data")), (.refMut (.var "buf")), (.bool false)])
        .unwrap
        [])
    (.seq (.assertEq (.var "consumed_count") (.int .usize 4))
    (.seq (.assertEq (.var "decoded") (.str [(Char.ofNat 0x1F63A)]))
    .unit))))))

/-- The body of `decode_09`.  src/utf16_be.rs -/
def unit_utf16_be.decode_09 : Expr :=
  (.block
    (.letIn (.bind "data") (ints [216, 61, 222, 58, 216])
    (.letIn (.bind "buf") (.rep (.int .u8 0) 64)
    (.letIn (.tuple
      [(.bind "decoded"),
       (.bind "consumed_count")])
      (.method
        (.call false "decode_to_str" [(.ref (.var "data")), (.refMut (.var "buf")), (.bool false)])
        .unwrap
        [])
    (.seq (.assertEq (.var "consumed_count") (.int .usize 4))
    (.seq (.assertEq (.var "decoded") (.str [(Char.ofNat 0x1F63A)]))
    .unit))))))

/-- The body of `decode_error_01`.  src/utf16_be.rs -/
def unit_utf16_be.decode_error_01 : Expr :=
  (.block
    (.letIn (.bind "data") (ints [222, 58, 48, 147, 48, 107, 48, 97, 48, 111, 255, 1])
    (.letIn (.bind "buf") (.rep (.int .u8 0) 2)
    (.letIn (.bind "error")
      (.call false "decode_to_str" [(.ref (.var "data")), (.refMut (.var "buf")), (.bool true)])
    (.seq
      (.assertEq
        (.var "error")
        (.ctor
          "Err"
          (.struct
            "DecodeError"
            ["cause", "error_range", "output_bytes_written"]
            [(.variant "InvalidData"),
             (.tuple [(.int .usize 0), (.int .usize 2)]),
             (.int .usize 0)])))
    .unit)))))

/-- The body of `decode_error_02`.  src/utf16_be.rs -/
def unit_utf16_be.decode_error_02 : Expr :=
  (.block
    (.letIn (.bind "data") (ints [48, 83, 222, 58, 48, 107, 48, 97, 48, 111, 255, 1])
    (.letIn (.bind "buf") (.rep (.int .u8 0) 3)
    (.letIn (.bind "error")
      (.call false "decode_to_str" [(.ref (.var "data")), (.refMut (.var "buf")), (.bool true)])
    (.seq
      (.assertEq
        (.var "error")
        (.ctor
          "Err"
          (.struct
            "DecodeError"
            ["cause", "error_range", "output_bytes_written"]
            [(.variant "InvalidData"),
             (.tuple [(.int .usize 2), (.int .usize 4)]),
             (.int .usize 3)])))
    .unit)))))

/-- The body of `decode_error_03`.  src/utf16_be.rs -/
def unit_utf16_be.decode_error_03 : Expr :=
  (.block
    (.letIn (.bind "data") (ints [48, 83, 48, 147, 48, 107, 222, 58, 48, 111, 255, 1])
    (.letIn (.bind "buf") (.rep (.int .u8 0) 64)
    (.letIn (.bind "error")
      (.call false "decode_to_str" [(.ref (.var "data")), (.refMut (.var "buf")), (.bool true)])
    (.seq
      (.assertEq
        (.var "error")
        (.ctor
          "Err"
          (.struct
            "DecodeError"
            ["cause", "error_range", "output_bytes_written"]
            [(.variant "InvalidData"),
             (.tuple [(.int .usize 6), (.int .usize 8)]),
             (.int .usize 9)])))
    .unit)))))

/-- The body of `decode_error_04`.  src/utf16_be.rs -/
def unit_utf16_be.decode_error_04 : Expr :=
  (.block
    (.letIn (.bind "data") (ints [216, 61, 48, 147, 48, 107, 48, 97, 48, 111, 255, 1])
    (.letIn (.bind "buf") (.rep (.int .u8 0) 2)
    (.letIn (.bind "error")
      (.call false "decode_to_str" [(.ref (.var "data")), (.refMut (.var "buf")), (.bool true)])
    (.seq
      (.assertEq
        (.var "error")
        (.ctor
          "Err"
          (.struct
            "DecodeError"
            ["cause", "error_range", "output_bytes_written"]
            [(.variant "InvalidData"),
             (.tuple [(.int .usize 0), (.int .usize 2)]),
             (.int .usize 0)])))
    .unit)))))

/-- The body of `decode_error_05`.  src/utf16_be.rs -/
def unit_utf16_be.decode_error_05 : Expr :=
  (.block
    (.letIn (.bind "data") (ints [48, 83, 216, 61, 48, 107, 48, 97, 48, 111, 255, 1])
    (.letIn (.bind "buf") (.rep (.int .u8 0) 3)
    (.letIn (.bind "error")
      (.call false "decode_to_str" [(.ref (.var "data")), (.refMut (.var "buf")), (.bool true)])
    (.seq
      (.assertEq
        (.var "error")
        (.ctor
          "Err"
          (.struct
            "DecodeError"
            ["cause", "error_range", "output_bytes_written"]
            [(.variant "InvalidData"),
             (.tuple [(.int .usize 2), (.int .usize 4)]),
             (.int .usize 3)])))
    .unit)))))

/-- The body of `decode_error_06`.  src/utf16_be.rs -/
def unit_utf16_be.decode_error_06 : Expr :=
  (.block
    (.letIn (.bind "data") (ints [48, 83, 48, 147, 48, 107, 216, 61, 48, 111, 255, 1])
    (.letIn (.bind "buf") (.rep (.int .u8 0) 64)
    (.letIn (.bind "error")
      (.call false "decode_to_str" [(.ref (.var "data")), (.refMut (.var "buf")), (.bool true)])
    (.seq
      (.assertEq
        (.var "error")
        (.ctor
          "Err"
          (.struct
            "DecodeError"
            ["cause", "error_range", "output_bytes_written"]
            [(.variant "InvalidData"),
             (.tuple [(.int .usize 6), (.int .usize 8)]),
             (.int .usize 9)])))
    .unit)))))

/-- The body of `decode_error_07`.  src/utf16_be.rs -/
def unit_utf16_be.decode_error_07 : Expr :=
  (.block
    (.letIn (.bind "data") (ints [216, 61, 222, 58, 216, 61])
    (.letIn (.bind "buf") (.rep (.int .u8 0) 64)
    (.letIn (.bind "error")
      (.call false "decode_to_str" [(.ref (.var "data")), (.refMut (.var "buf")), (.bool true)])
    (.seq
      (.assertEq
        (.var "error")
        (.ctor
          "Err"
          (.struct
            "DecodeError"
            ["cause", "error_range", "output_bytes_written"]
            [(.variant "InvalidData"),
             (.tuple [(.int .usize 4), (.int .usize 6)]),
             (.int .usize 4)])))
    .unit)))))

/-- The body of `decode_error_08`.  src/utf16_be.rs -/
def unit_utf16_be.decode_error_08 : Expr :=
  (.block
    (.letIn (.bind "data") (ints [216, 61, 222, 58, 216, 61, 222])
    (.letIn (.bind "buf") (.rep (.int .u8 0) 64)
    (.letIn (.bind "error")
      (.call false "decode_to_str" [(.ref (.var "data")), (.refMut (.var "buf")), (.bool true)])
    (.seq
      (.assertEq
        (.var "error")
        (.ctor
          "Err"
          (.struct
            "DecodeError"
            ["cause", "error_range", "output_bytes_written"]
            [(.variant "InvalidData"),
             (.tuple [(.int .usize 4), (.int .usize 7)]),
             (.int .usize 4)])))
    .unit)))))

/-- The body of `decode_error_09`.  src/utf16_be.rs -/
def unit_utf16_be.decode_error_09 : Expr :=
  (.block
    (.letIn (.bind "data") (ints [216, 61, 222, 58, 216])
    (.letIn (.bind "buf") (.rep (.int .u8 0) 64)
    (.letIn (.bind "error")
      (.call false "decode_to_str" [(.ref (.var "data")), (.refMut (.var "buf")), (.bool true)])
    (.seq
      (.assertEq
        (.var "error")
        (.ctor
          "Err"
          (.struct
            "DecodeError"
            ["cause", "error_range", "output_bytes_written"]
            [(.variant "InvalidData"),
             (.tuple [(.int .usize 4), (.int .usize 5)]),
             (.int .usize 4)])))
    .unit)))))

/-- the unit tests of src/utf16_be.rs -/
def unit_utf16_be : List Item :=
  [.useSuper,
   .test,
   .fn "encode_01" [] unit_utf16_be.encode_01,
   .test,
   .fn "encode_02" [] unit_utf16_be.encode_02,
   .test,
   .fn "encode_03" [] unit_utf16_be.encode_03,
   .test,
   .fn "encode_04" [] unit_utf16_be.encode_04,
   .test,
   .fn "encode_05" [] unit_utf16_be.encode_05,
   .test,
   .fn "encode_06" [] unit_utf16_be.encode_06,
   .test,
   .fn "decode_01" [] unit_utf16_be.decode_01,
   .test,
   .fn "decode_02" [] unit_utf16_be.decode_02,
   .test,
   .fn "decode_03" [] unit_utf16_be.decode_03,
   .test,
   .fn "decode_04" [] unit_utf16_be.decode_04,
   .test,
   .fn "decode_05" [] unit_utf16_be.decode_05,
   .test,
   .fn "decode_06" [] unit_utf16_be.decode_06,
   .test,
   .fn "decode_07" [] unit_utf16_be.decode_07,
   .test,
   .fn "decode_08" [] unit_utf16_be.decode_08,
   .test,
   .fn "decode_09" [] unit_utf16_be.decode_09,
   .test,
   .fn "decode_error_01" [] unit_utf16_be.decode_error_01,
   .test,
   .fn "decode_error_02" [] unit_utf16_be.decode_error_02,
   .test,
   .fn "decode_error_03" [] unit_utf16_be.decode_error_03,
   .test,
   .fn "decode_error_04" [] unit_utf16_be.decode_error_04,
   .test,
   .fn "decode_error_05" [] unit_utf16_be.decode_error_05,
   .test,
   .fn "decode_error_06" [] unit_utf16_be.decode_error_06,
   .test,
   .fn "decode_error_07" [] unit_utf16_be.decode_error_07,
   .test,
   .fn "decode_error_08" [] unit_utf16_be.decode_error_08,
   .test,
   .fn "decode_error_09" [] unit_utf16_be.decode_error_09]

/-- The body of `encode_01`.  src/utf16_le.rs -/
def unit_utf16_le.encode_01 : Expr :=
  (.block
    (.letIn (.bind "text")
      (.str
        [(Char.ofNat 0x3053),
         (Char.ofNat 0x3093),
         (Char.ofNat 0x306B),
         (Char.ofNat 0x3061),
         (Char.ofNat 0x306F),
         (Char.ofNat 0xFF01)])
    (.letIn (.bind "buf") (.rep (.int .u8 0) 1)
    (.letIn (.tuple
      [(.bind "encoded"),
       (.bind "consumed_count")])
      (.method (.call false "encode_from_str" [(.var "text"), (.refMut (.var "buf"))]) .unwrap [])
    (.seq (.assertEq (.var "consumed_count") (.int .usize 0))
    (.seq (.assertEq (.var "encoded") (.ref (.array [])))
    .unit))))))

/-- The body of `encode_02`.  src/utf16_le.rs -/
def unit_utf16_le.encode_02 : Expr :=
  (.block
    (.letIn (.bind "text")
      (.str
        [(Char.ofNat 0x3053),
         (Char.ofNat 0x3093),
         (Char.ofNat 0x306B),
         (Char.ofNat 0x3061),
         (Char.ofNat 0x306F),
         (Char.ofNat 0xFF01)])
    (.letIn (.bind "buf") (.rep (.int .u8 0) 2)
    (.letIn (.tuple
      [(.bind "encoded"),
       (.bind "consumed_count")])
      (.method (.call false "encode_from_str" [(.var "text"), (.refMut (.var "buf"))]) .unwrap [])
    (.seq (.assertEq (.var "consumed_count") (.int .usize 3))
    (.seq (.assertEq (.var "encoded") (.ref (ints [83, 48])))
    .unit))))))

/-- The body of `encode_03`.  src/utf16_le.rs -/
def unit_utf16_le.encode_03 : Expr :=
  (.block
    (.letIn (.bind "text")
      (.str
        [(Char.ofNat 0x3053),
         (Char.ofNat 0x3093),
         (Char.ofNat 0x306B),
         (Char.ofNat 0x3061),
         (Char.ofNat 0x306F),
         (Char.ofNat 0xFF01)])
    (.letIn (.bind "buf") (.rep (.int .u8 0) 3)
    (.letIn (.tuple
      [(.bind "encoded"),
       (.bind "consumed_count")])
      (.method (.call false "encode_from_str" [(.var "text"), (.refMut (.var "buf"))]) .unwrap [])
    (.seq (.assertEq (.var "consumed_count") (.int .usize 3))
    (.seq (.assertEq (.var "encoded") (.ref (ints [83, 48])))
    .unit))))))

/-- The body of `encode_04`.  src/utf16_le.rs -/
def unit_utf16_le.encode_04 : Expr :=
  (.block
    (.letIn (.bind "text") (.str [(Char.ofNat 0x1F63A), (Char.ofNat 0x1F63C)])
    (.letIn (.bind "buf") (.rep (.int .u8 0) 3)
    (.letIn (.tuple
      [(.bind "encoded"),
       (.bind "consumed_count")])
      (.method (.call false "encode_from_str" [(.var "text"), (.refMut (.var "buf"))]) .unwrap [])
    (.seq (.assertEq (.var "consumed_count") (.int .usize 0))
    (.seq (.assertEq (.var "encoded") (.ref (.array [])))
    .unit))))))

/-- The body of `encode_05`.  src/utf16_le.rs -/
def unit_utf16_le.encode_05 : Expr :=
  (.block
    (.letIn (.bind "text") (.str [(Char.ofNat 0x1F63A), (Char.ofNat 0x1F63C)])
    (.letIn (.bind "buf") (.rep (.int .u8 0) 4)
    (.letIn (.tuple
      [(.bind "encoded"),
       (.bind "consumed_count")])
      (.method (.call false "encode_from_str" [(.var "text"), (.refMut (.var "buf"))]) .unwrap [])
    (.seq (.assertEq (.var "consumed_count") (.int .usize 4))
    (.seq (.assertEq (.var "encoded") (.ref (ints [61, 216, 58, 222])))
    .unit))))))

/-- The body of `encode_06`.  src/utf16_le.rs -/
def unit_utf16_le.encode_06 : Expr :=
  (.block
    (.letIn (.bind "text") (.str [(Char.ofNat 0x1F63A), (Char.ofNat 0x1F63C)])
    (.letIn (.bind "buf") (.rep (.int .u8 0) 7)
    (.letIn (.tuple
      [(.bind "encoded"),
       (.bind "consumed_count")])
      (.method (.call false "encode_from_str" [(.var "text"), (.refMut (.var "buf"))]) .unwrap [])
    (.seq (.assertEq (.var "consumed_count") (.int .usize 4))
    (.seq (.assertEq (.var "encoded") (.ref (ints [61, 216, 58, 222])))
    .unit))))))

/-- The body of `decode_01`.  src/utf16_le.rs -/
def unit_utf16_le.decode_01 : Expr :=
  (.block
    (.letIn (.bind "data") (ints [83, 48, 147, 48, 107, 48, 97, 48, 111, 48, 1, 255])
    (.letIn (.bind "buf") (.rep (.int .u8 0) 2)
    (.letIn (.tuple
      [(.bind "decoded"),
       (.bind "consumed_count")])
      (.method
        (.call false "decode_to_str" [(.ref (.var "data")), (.refMut (.var "buf")), (.bool true)])
        .unwrap
        [])
    (.seq (.assertEq (.var "consumed_count") (.int .usize 0))
    (.seq (.assertEq (.var "decoded") (.str []))
    .unit))))))

/-- The body of `decode_02`.  src/utf16_le.rs -/
def unit_utf16_le.decode_02 : Expr :=
  (.block
    (.letIn (.bind "data") (ints [83, 48, 147, 48, 107, 48, 97, 48, 111, 48, 1, 255])
    (.letIn (.bind "buf") (.rep (.int .u8 0) 3)
    (.letIn (.tuple
      [(.bind "decoded"),
       (.bind "consumed_count")])
      (.method
        (.call false "decode_to_str" [(.ref (.var "data")), (.refMut (.var "buf")), (.bool true)])
        .unwrap
        [])
    (.seq (.assertEq (.var "consumed_count") (.int .usize 2))
    (.seq (.assertEq (.var "decoded") (.str [(Char.ofNat 0x3053)]))
    .unit))))))

/-- The body of `decode_03`.  src/utf16_le.rs -/
def unit_utf16_le.decode_03 : Expr :=
  (.block
    (.letIn (.bind "data") (ints [83, 48, 147, 48, 107, 48, 97, 48, 111, 48, 1, 255])
    (.letIn (.bind "buf") (.rep (.int .u8 0) 5)
    (.letIn (.tuple
      [(.bind "decoded"),
       (.bind "consumed_count")])
      (.method
        (.call false "decode_to_str" [(.ref (.var "data")), (.refMut (.var "buf")), (.bool true)])
        .unwrap
        [])
    (.seq (.assertEq (.var "consumed_count") (.int .usize 2))
    (.seq (.assertEq (.var "decoded") (.str [(Char.ofNat 0x3053)]))
    .unit))))))

/-- The body of `decode_04`.  src/utf16_le.rs -/
def unit_utf16_le.decode_04 : Expr :=
  (.block
    (.letIn (.bind "data") (ints [61, 216, 58, 222, 61, 216, 60, 222])
    (.letIn (.bind "buf") (.rep (.int .u8 0) 3)
    (.letIn (.tuple
      [(.bind "decoded"),
       (.bind "consumed_count")])
      (.method
        (.call false "decode_to_str" [(.ref (.var "data")), (.refMut (.var "buf")), (.bool true)])
        .unwrap
        [])
    (.seq (.assertEq (.var "consumed_count") (.int .usize 0))
    (.seq (.assertEq (.var "decoded") (.str []))
    .unit))))))

/-- The body of `decode_05`.  src/utf16_le.rs -/
def unit_utf16_le.decode_05 : Expr :=
  (.block
    (.letIn (.bind "data") (ints [61, 216, 58, 222, 61, 216, 60, 222])
    (.letIn (.bind "buf") (.rep (.int .u8 0) 4)
    (.letIn (.tuple
      [(.bind "decoded"),
       (.bind "consumed_count")])
      (.method
        (.call false "decode_to_str" [(.ref (.var "data")), (.refMut (.var "buf")), (.bool true)])
        .unwrap
        [])
    (.seq (.assertEq (.var "consumed_count") (.int .usize 4))
    (.seq (.assertEq (.var "decoded") (.str [(Char.ofNat 0x1F63A)]))
    .unit))))))

/-- The body of `decode_06`.  src/utf16_le.rs -/
def unit_utf16_le.decode_06 : Expr :=
  (.block
    (.letIn (.bind "data") (ints [61, 216, 58, 222, 61, 216, 60, 222])
    (.letIn (.bind "buf") (.rep (.int .u8 0) 7)
    (.letIn (.tuple
      [(.bind "decoded"),
       (.bind "consumed_count")])
      (.method
        (.call false "decode_to_str" [(.ref (.var "data")), (.refMut (.var "buf")), (.bool true)])
        .unwrap
        [])
    (.seq (.assertEq (.var "consumed_count") (.int .usize 4))
    (.seq (.assertEq (.var "decoded") (.str [(Char.ofNat 0x1F63A)]))
    .unit))))))

/-- The body of `decode_07`.  src/utf16_le.rs -/
def unit_utf16_le.decode_07 : Expr :=
  (.block
    (.letIn (.bind "data") (ints [61, 216, 58, 222, 61, 216])
    (.letIn (.bind "buf") (.rep (.int .u8 0) 64)
    (.letIn (.tuple
      [(.bind "decoded"),
       (.bind "consumed_count")])
      (.method
        (.call false "decode_to_str" [(.ref (.var "data")), (.refMut (.var "buf")), (.bool false)])
        .unwrap
        [])
    (.seq (.assertEq (.var "consumed_count") (.int .usize 4))
    (.seq (.assertEq (.var "decoded") (.str [(Char.ofNat 0x1F63A)]))
    .unit))))))

/-- The body of `decode_08`.  src/utf16_le.rs -/
def unit_utf16_le.decode_08 : Expr :=
  (.block
    (.letIn (.bind "data") (ints [61, 216, 58, 222, 61, 216, 60])
    (.letIn (.bind "buf") (.rep (.int .u8 0) 64)
    (.letIn (.tuple
      [(.bind "decoded"),
       (.bind "consumed_count")])
      (.method
        (.call false "decode_to_str" [(.ref (.var "data")), (.refMut (.var "buf")), (.bool false)])
        .unwrap
        [])
    (.seq (.assertEq (.var "consumed_count") (.int .usize 4))
    (.seq (.assertEq (.var "decoded") (.str [(Char.ofNat 0x1F63A)]))
    .unit))))))

/-- The body of `decode_09`.  src/utf16_le.rs -/
def unit_utf16_le.decode_09 : Expr :=
  (.block
    (.letIn (.bind "data") (ints [61, 216, 58, 222, 61])
    (.letIn (.bind "buf") (.rep (.int .u8 0) 64)
    (.letIn (.tuple
      [(.bind "decoded"),
       (.bind "consumed_count")])
      (.method
        (.call false "decode_to_str" [(.ref (.var "data")), (.refMut (.var "buf")), (.bool false)])
        .unwrap
        [])
    (.seq (.assertEq (.var "consumed_count") (.int .usize 4))
    (.seq (.assertEq (.var "decoded") (.str [(Char.ofNat 0x1F63A)]))
    .unit))))))

/-- The body of `decode_error_01`.  src/utf16_le.rs -/
def unit_utf16_le.decode_error_01 : Expr :=
  (.block
    (.letIn (.bind "data") (ints [58, 222, 147, 48, 107, 48, 97, 48, 111, 48, 1, 255])
    (.letIn (.bind "buf") (.rep (.int .u8 0) 2)
    (.letIn (.bind "error")
      (.call false "decode_to_str" [(.ref (.var "data")), (.refMut (.var "buf")), (.bool true)])
    (.seq
      (.assertEq
        (.var "error")
        (.ctor
          "Err"
          (.struct
            "DecodeError"
            ["cause", "error_range", "output_bytes_written"]
            [(.variant "InvalidData"),
             (.tuple [(.int .usize 0), (.int .usize 2)]),
             (.int .usize 0)])))
    .unit)))))

/-- The body of `decode_error_02`.  src/utf16_le.rs -/
def unit_utf16_le.decode_error_02 : Expr :=
  (.block
    (.letIn (.bind "data") (ints [83, 48, 58, 222, 107, 48, 97, 48, 111, 48, 1, 255])
    (.letIn (.bind "buf") (.rep (.int .u8 0) 3)
    (.letIn (.bind "error")
      (.call false "decode_to_str" [(.ref (.var "data")), (.refMut (.var "buf")), (.bool true)])
    (.seq
      (.assertEq
        (.var "error")
        (.ctor
          "Err"
          (.struct
            "DecodeError"
            ["cause", "error_range", "output_bytes_written"]
            [(.variant "InvalidData"),
             (.tuple [(.int .usize 2), (.int .usize 4)]),
             (.int .usize 3)])))
    .unit)))))

/-- The body of `decode_error_03`.  src/utf16_le.rs -/
def unit_utf16_le.decode_error_03 : Expr :=
  (.block
    (.letIn (.bind "data") (ints [83, 48, 147, 48, 107, 48, 58, 222, 111, 48, 1, 255])
    (.letIn (.bind "buf") (.rep (.int .u8 0) 64)
    (.letIn (.bind "error")
      (.call false "decode_to_str" [(.ref (.var "data")), (.refMut (.var "buf")), (.bool true)])
    (.seq
      (.assertEq
        (.var "error")
        (.ctor
          "Err"
          (.struct
            "DecodeError"
            ["cause", "error_range", "output_bytes_written"]
            [(.variant "InvalidData"),
             (.tuple [(.int .usize 6), (.int .usize 8)]),
             (.int .usize 9)])))
    .unit)))))

/-- The body of `decode_error_04`.  src/utf16_le.rs -/
def unit_utf16_le.decode_error_04 : Expr :=
  (.block
    (.letIn (.bind "data") (ints [61, 216, 147, 48, 107, 48, 97, 48, 111, 48, 1, 255])
    (.letIn (.bind "buf") (.rep (.int .u8 0) 2)
    (.letIn (.bind "error")
      (.call false "decode_to_str" [(.ref (.var "data")), (.refMut (.var "buf")), (.bool true)])
    (.seq
      (.assertEq
        (.var "error")
        (.ctor
          "Err"
          (.struct
            "DecodeError"
            ["cause", "error_range", "output_bytes_written"]
            [(.variant "InvalidData"),
             (.tuple [(.int .usize 0), (.int .usize 2)]),
             (.int .usize 0)])))
    .unit)))))

/-- The body of `decode_error_05`.  src/utf16_le.rs -/
def unit_utf16_le.decode_error_05 : Expr :=
  (.block
    (.letIn (.bind "data") (ints [83, 48, 61, 216, 107, 48, 97, 48, 111, 48, 1, 255])
    (.letIn (.bind "buf") (.rep (.int .u8 0) 3)
    (.letIn (.bind "error")
      (.call false "decode_to_str" [(.ref (.var "data")), (.refMut (.var "buf")), (.bool true)])
    (.seq
      (.assertEq
        (.var "error")
        (.ctor
          "Err"
          (.struct
            "DecodeError"
            ["cause", "error_range", "output_bytes_written"]
            [(.variant "InvalidData"),
             (.tuple [(.int .usize 2), (.int .usize 4)]),
             (.int .usize 3)])))
    .unit)))))

/-- The body of `decode_error_06`.  src/utf16_le.rs -/
def unit_utf16_le.decode_error_06 : Expr :=
  (.block
    (.letIn (.bind "data") (ints [83, 48, 147, 48, 107, 48, 61, 216, 111, 48, 1, 255])
    (.letIn (.bind "buf") (.rep (.int .u8 0) 64)
    (.letIn (.bind "error")
      (.call false "decode_to_str" [(.ref (.var "data")), (.refMut (.var "buf")), (.bool true)])
    (.seq
      (.assertEq
        (.var "error")
        (.ctor
          "Err"
          (.struct
            "DecodeError"
            ["cause", "error_range", "output_bytes_written"]
            [(.variant "InvalidData"),
             (.tuple [(.int .usize 6), (.int .usize 8)]),
             (.int .usize 9)])))
    .unit)))))

/-- The body of `decode_error_07`.  src/utf16_le.rs -/
def unit_utf16_le.decode_error_07 : Expr :=
  (.block
    (.letIn (.bind "data") (ints [61, 216, 58, 222, 61, 216])
    (.letIn (.bind "buf") (.rep (.int .u8 0) 64)
    (.letIn (.bind "error")
      (.call false "decode_to_str" [(.ref (.var "data")), (.refMut (.var "buf")), (.bool true)])
    (.seq
      (.assertEq
        (.var "error")
        (.ctor
          "Err"
          (.struct
            "DecodeError"
            ["cause", "error_range", "output_bytes_written"]
            [(.variant "InvalidData"),
             (.tuple [(.int .usize 4), (.int .usize 6)]),
             (.int .usize 4)])))
    .unit)))))

/-- The body of `decode_error_08`.  src/utf16_le.rs -/
def unit_utf16_le.decode_error_08 : Expr :=
  (.block
    (.letIn (.bind "data") (ints [61, 216, 58, 222, 61, 216, 60])
    (.letIn (.bind "buf") (.rep (.int .u8 0) 64)
    (.letIn (.bind "error")
      (.call false "decode_to_str" [(.ref (.var "data")), (.refMut (.var "buf")), (.bool true)])
    (.seq
      (.assertEq
        (.var "error")
        (.ctor
          "Err"
          (.struct
            "DecodeError"
            ["cause", "error_range", "output_bytes_written"]
            [(.variant "InvalidData"),
             (.tuple [(.int .usize 4), (.int .usize 7)]),
             (.int .usize 4)])))
    .unit)))))

/-- The body of `decode_error_09`.  src/utf16_le.rs -/
def unit_utf16_le.decode_error_09 : Expr :=
  (.block
    (.letIn (.bind "data") (ints [61, 216, 58, 222, 61])
    (.letIn (.bind "buf") (.rep (.int .u8 0) 64)
    (.letIn (.bind "error")
      (.call false "decode_to_str" [(.ref (.var "data")), (.refMut (.var "buf")), (.bool true)])
    (.seq
      (.assertEq
        (.var "error")
        (.ctor
          "Err"
          (.struct
            "DecodeError"
            ["cause", "error_range", "output_bytes_written"]
            [(.variant "InvalidData"),
             (.tuple [(.int .usize 4), (.int .usize 5)]),
             (.int .usize 4)])))
    .unit)))))

/-- the unit tests of src/utf16_le.rs -/
def unit_utf16_le : List Item :=
  [.useSuper,
   .test,
   .fn "encode_01" [] unit_utf16_le.encode_01,
   .test,
   .fn "encode_02" [] unit_utf16_le.encode_02,
   .test,
   .fn "encode_03" [] unit_utf16_le.encode_03,
   .test,
   .fn "encode_04" [] unit_utf16_le.encode_04,
   .test,
   .fn "encode_05" [] unit_utf16_le.encode_05,
   .test,
   .fn "encode_06" [] unit_utf16_le.encode_06,
   .test,
   .fn "decode_01" [] unit_utf16_le.decode_01,
   .test,
   .fn "decode_02" [] unit_utf16_le.decode_02,
   .test,
   .fn "decode_03" [] unit_utf16_le.decode_03,
   .test,
   .fn "decode_04" [] unit_utf16_le.decode_04,
   .test,
   .fn "decode_05" [] unit_utf16_le.decode_05,
   .test,
   .fn "decode_06" [] unit_utf16_le.decode_06,
   .test,
   .fn "decode_07" [] unit_utf16_le.decode_07,
   .test,
   .fn "decode_08" [] unit_utf16_le.decode_08,
   .test,
   .fn "decode_09" [] unit_utf16_le.decode_09,
   .test,
   .fn "decode_error_01" [] unit_utf16_le.decode_error_01,
   .test,
   .fn "decode_error_02" [] unit_utf16_le.decode_error_02,
   .test,
   .fn "decode_error_03" [] unit_utf16_le.decode_error_03,
   .test,
   .fn "decode_error_04" [] unit_utf16_le.decode_error_04,
   .test,
   .fn "decode_error_05" [] unit_utf16_le.decode_error_05,
   .test,
   .fn "decode_error_06" [] unit_utf16_le.decode_error_06,
   .test,
   .fn "decode_error_07" [] unit_utf16_le.decode_error_07,
   .test,
   .fn "decode_error_08" [] unit_utf16_le.decode_error_08,
   .test,
   .fn "decode_error_09" [] unit_utf16_le.decode_error_09]

/-- The body of `encode_01`.  src/utf32_be.rs -/
def unit_utf32_be.encode_01 : Expr :=
  (.block
    (.letIn (.bind "text")
      (.str
        [(Char.ofNat 0x3053),
         (Char.ofNat 0x3093),
         (Char.ofNat 0x306B),
         (Char.ofNat 0x3061),
         (Char.ofNat 0x306F),
         (Char.ofNat 0xFF01)])
    (.letIn (.bind "buf") (.rep (.int .u8 0) 3)
    (.letIn (.tuple
      [(.bind "encoded"),
       (.bind "consumed_count")])
      (.method (.call false "encode_from_str" [(.var "text"), (.refMut (.var "buf"))]) .unwrap [])
    (.seq (.assertEq (.var "consumed_count") (.int .usize 0))
    (.seq (.assertEq (.var "encoded") (.ref (.array [])))
    .unit))))))

/-- The body of `encode_02`.  src/utf32_be.rs -/
def unit_utf32_be.encode_02 : Expr :=
  (.block
    (.letIn (.bind "text")
      (.str
        [(Char.ofNat 0x3053),
         (Char.ofNat 0x3093),
         (Char.ofNat 0x306B),
         (Char.ofNat 0x3061),
         (Char.ofNat 0x306F),
         (Char.ofNat 0xFF01)])
    (.letIn (.bind "buf") (.rep (.int .u8 0) 4)
    (.letIn (.tuple
      [(.bind "encoded"),
       (.bind "consumed_count")])
      (.method (.call false "encode_from_str" [(.var "text"), (.refMut (.var "buf"))]) .unwrap [])
    (.seq (.assertEq (.var "consumed_count") (.int .usize 3))
    (.seq (.assertEq (.var "encoded") (.ref (ints [0, 0, 48, 83])))
    .unit))))))

/-- The body of `encode_03`.  src/utf32_be.rs -/
def unit_utf32_be.encode_03 : Expr :=
  (.block
    (.letIn (.bind "text")
      (.str
        [(Char.ofNat 0x3053),
         (Char.ofNat 0x3093),
         (Char.ofNat 0x306B),
         (Char.ofNat 0x3061),
         (Char.ofNat 0x306F),
         (Char.ofNat 0xFF01)])
    (.letIn (.bind "buf") (.rep (.int .u8 0) 7)
    (.letIn (.tuple
      [(.bind "encoded"),
       (.bind "consumed_count")])
      (.method (.call false "encode_from_str" [(.var "text"), (.refMut (.var "buf"))]) .unwrap [])
    (.seq (.assertEq (.var "consumed_count") (.int .usize 3))
    (.seq (.assertEq (.var "encoded") (.ref (ints [0, 0, 48, 83])))
    .unit))))))

/-- The body of `encode_04`.  src/utf32_be.rs -/
def unit_utf32_be.encode_04 : Expr :=
  (.block
    (.letIn (.bind "text") (.str [(Char.ofNat 0x1F63A), (Char.ofNat 0x1F63C)])
    (.letIn (.bind "buf") (.rep (.int .u8 0) 3)
    (.letIn (.tuple
      [(.bind "encoded"),
       (.bind "consumed_count")])
      (.method (.call false "encode_from_str" [(.var "text"), (.refMut (.var "buf"))]) .unwrap [])
    (.seq (.assertEq (.var "consumed_count") (.int .usize 0))
    (.seq (.assertEq (.var "encoded") (.ref (.array [])))
    .unit))))))

/-- The body of `encode_05`.  src/utf32_be.rs -/
def unit_utf32_be.encode_05 : Expr :=
  (.block
    (.letIn (.bind "text") (.str [(Char.ofNat 0x1F63A), (Char.ofNat 0x1F63C)])
    (.letIn (.bind "buf") (.rep (.int .u8 0) 4)
    (.letIn (.tuple
      [(.bind "encoded"),
       (.bind "consumed_count")])
      (.method (.call false "encode_from_str" [(.var "text"), (.refMut (.var "buf"))]) .unwrap [])
    (.seq (.assertEq (.var "consumed_count") (.int .usize 4))
    (.seq (.assertEq (.var "encoded") (.ref (ints [0, 1, 246, 58])))
    .unit))))))

/-- The body of `encode_06`.  src/utf32_be.rs -/
def unit_utf32_be.encode_06 : Expr :=
  (.block
    (.letIn (.bind "text") (.str [(Char.ofNat 0x1F63A), (Char.ofNat 0x1F63C)])
    (.letIn (.bind "buf") (.rep (.int .u8 0) 7)
    (.letIn (.tuple
      [(.bind "encoded"),
       (.bind "consumed_count")])
      (.method (.call false "encode_from_str" [(.var "text"), (.refMut (.var "buf"))]) .unwrap [])
    (.seq (.assertEq (.var "consumed_count") (.int .usize 4))
    (.seq (.assertEq (.var "encoded") (.ref (ints [0, 1, 246, 58])))
    .unit))))))

/-- The body of `decode_01`.  src/utf32_be.rs -/
def unit_utf32_be.decode_01 : Expr :=
  (.block
    (.letIn (.bind "data")
      (ints [0, 0, 48, 83, 0, 0, 48, 147, 0, 0, 48, 107, 0, 0, 48, 97, 0, 0, 48, 111, 0, 0, 255, 1])
    (.letIn (.bind "buf") (.rep (.int .u8 0) 2)
    (.letIn (.tuple
      [(.bind "decoded"),
       (.bind "consumed_count")])
      (.method
        (.call false "decode_to_str" [(.ref (.var "data")), (.refMut (.var "buf")), (.bool true)])
        .unwrap
        [])
    (.seq (.assertEq (.var "consumed_count") (.int .usize 0))
    (.seq (.assertEq (.var "decoded") (.str []))
    .unit))))))

/-- The body of `decode_02`.  src/utf32_be.rs -/
def unit_utf32_be.decode_02 : Expr :=
  (.block
    (.letIn (.bind "data")
      (ints [0, 0, 48, 83, 0, 0, 48, 147, 0, 0, 48, 107, 0, 0, 48, 97, 0, 0, 48, 111, 0, 0, 255, 1])
    (.letIn (.bind "buf") (.rep (.int .u8 0) 3)
    (.letIn (.tuple
      [(.bind "decoded"),
       (.bind "consumed_count")])
      (.method
        (.call false "decode_to_str" [(.ref (.var "data")), (.refMut (.var "buf")), (.bool true)])
        .unwrap
        [])
    (.seq (.assertEq (.var "consumed_count") (.int .usize 4))
    (.seq (.assertEq (.var "decoded") (.str [(Char.ofNat 0x3053)]))
    .unit))))))

/-- The body of `decode_03`.  src/utf32_be.rs -/
def unit_utf32_be.decode_03 : Expr :=
  (.block
    (.letIn (.bind "data")
      (ints [0, 0, 48, 83, 0, 0, 48, 147, 0, 0, 48, 107, 0, 0, 48, 97, 0, 0, 48, 111, 0, 0, 255, 1])
    (.letIn (.bind "buf") (.rep (.int .u8 0) 5)
    (.letIn (.tuple
      [(.bind "decoded"),
       (.bind "consumed_count")])
      (.method
        (.call false "decode_to_str" [(.ref (.var "data")), (.refMut (.var "buf")), (.bool true)])
        .unwrap
        [])
    (.seq (.assertEq (.var "consumed_count") (.int .usize 4))
    (.seq (.assertEq (.var "decoded") (.str [(Char.ofNat 0x3053)]))
    .unit))))))

/-- The body of `decode_04`.  src/utf32_be.rs -/
def unit_utf32_be.decode_04 : Expr :=
  (.block
    (.letIn (.bind "data") (ints [0, 1, 246, 58, 0, 1, 246, 60])
    (.letIn (.bind "buf") (.rep (.int .u8 0) 3)
    (.letIn (.tuple
      [(.bind "decoded"),
       (.bind "consumed_count")])
      (.method
        (.call false "decode_to_str" [(.ref (.var "data")), (.refMut (.var "buf")), (.bool true)])
        .unwrap
        [])
    (.seq (.assertEq (.var "consumed_count") (.int .usize 0))
    (.seq (.assertEq (.var "decoded") (.str []))
    .unit))))))

/-- The body of `decode_05`.  src/utf32_be.rs -/
def unit_utf32_be.decode_05 : Expr :=
  (.block
    (.letIn (.bind "data") (ints [0, 1, 246, 58, 0, 1, 246, 60])
    (.letIn (.bind "buf") (.rep (.int .u8 0) 4)
    (.letIn (.tuple
      [(.bind "decoded"),
       (.bind "consumed_count")])
      (.method
        (.call false "decode_to_str" [(.ref (.var "data")), (.refMut (.var "buf")), (.bool true)])
        .unwrap
        [])
    (.seq (.assertEq (.var "consumed_count") (.int .usize 4))
    (.seq (.assertEq (.var "decoded") (.str [(Char.ofNat 0x1F63A)]))
    .unit))))))

/-- The body of `decode_06`.  src/utf32_be.rs -/
def unit_utf32_be.decode_06 : Expr :=
  (.block
    (.letIn (.bind "data") (ints [0, 1, 246, 58, 0, 1, 246, 60])
    (.letIn (.bind "buf") (.rep (.int .u8 0) 7)
    (.letIn (.tuple
      [(.bind "decoded"),
       (.bind "consumed_count")])
      (.method
        (.call false "decode_to_str" [(.ref (.var "data")), (.refMut (.var "buf")), (.bool true)])
        .unwrap
        [])
    (.seq (.assertEq (.var "consumed_count") (.int .usize 4))
    (.seq (.assertEq (.var "decoded") (.str [(Char.ofNat 0x1F63A)]))
    .unit))))))

/-- The body of `decode_07`.  src/utf32_be.rs -/
def unit_utf32_be.decode_07 : Expr :=
  (.block
    (.letIn (.bind "data") (ints [0, 1, 246, 58, 0, 1, 246])
    (.letIn (.bind "buf") (.rep (.int .u8 0) 64)
    (.letIn (.tuple
      [(.bind "decoded"),
       (.bind "consumed_count")])
      (.method
        (.call false "decode_to_str" [(.ref (.var "data")), (.refMut (.var "buf")), (.bool false)])
        .unwrap
        [])
    (.seq (.assertEq (.var "consumed_count") (.int .usize 4))
    (.seq (.assertEq (.var "decoded") (.str [(Char.ofNat 0x1F63A)]))
    .unit))))))

/-- The body of `decode_08`.  src/utf32_be.rs -/
def unit_utf32_be.decode_08 : Expr :=
  (.block
    (.letIn (.bind "data") (ints [0, 1, 246, 58, 0, 1])
    (.letIn (.bind "buf") (.rep (.int .u8 0) 64)
    (.letIn (.tuple
      [(.bind "decoded"),
       (.bind "consumed_count")])
      (.method
        (.call false "decode_to_str" [(.ref (.var "data")), (.refMut (.var "buf")), (.bool false)])
        .unwrap
        [])
    (.seq (.assertEq (.var "consumed_count") (.int .usize 4))
    (.seq (.assertEq (.var "decoded") (.str [(Char.ofNat 0x1F63A)]))
    .unit))))))

/-- The body of `decode_09`.  src/utf32_be.rs -/
def unit_utf32_be.decode_09 : Expr :=
  (.block
    (.letIn (.bind "data") (ints [0, 1, 246, 58, 0])
    (.letIn (.bind "buf") (.rep (.int .u8 0) 64)
    (.letIn (.tuple
      [(.bind "decoded"),
       (.bind "consumed_count")])
      (.method
        (.call false "decode_to_str" [(.ref (.var "data")), (.refMut (.var "buf")), (.bool false)])
        .unwrap
        [])
    (.seq (.assertEq (.var "consumed_count") (.int .usize 4))
    (.seq (.assertEq (.var "decoded") (.str [(Char.ofNat 0x1F63A)]))
    .unit))))))

/-- The body of `decode_error_01`.  src/utf32_be.rs -/
def unit_utf32_be.decode_error_01 : Expr :=
  (.block
    (.letIn (.bind "data")
      (ints [0, 17, 0, 0, 0, 0, 48, 147, 0, 0, 48, 107, 0, 0, 48, 97, 0, 0, 48, 111, 0, 0, 255, 1])
    (.letIn (.bind "buf") (.rep (.int .u8 0) 2)
    (.seq
      (.assertEq
        (.call false "decode_to_str" [(.ref (.var "data")), (.refMut (.var "buf")), (.bool true)])
        (.ctor
          "Err"
          (.struct
            "DecodeError"
            ["cause", "error_range", "output_bytes_written"]
            [(.variant "InvalidData"),
             (.tuple [(.int .usize 0), (.int .usize 4)]),
             (.int .usize 0)])))
    .unit))))

/-- The body of `decode_error_02`.  src/utf32_be.rs -/
def unit_utf32_be.decode_error_02 : Expr :=
  (.block
    (.letIn (.bind "data")
      (ints [0, 0, 216, 0, 0, 0, 48, 147, 0, 0, 48, 107, 0, 0, 48, 97, 0, 0, 48, 111, 0, 0, 255, 1])
    (.letIn (.bind "buf") (.rep (.int .u8 0) 2)
    (.seq
      (.assertEq
        (.call false "decode_to_str" [(.ref (.var "data")), (.refMut (.var "buf")), (.bool true)])
        (.ctor
          "Err"
          (.struct
            "DecodeError"
            ["cause", "error_range", "output_bytes_written"]
            [(.variant "InvalidData"),
             (.tuple [(.int .usize 0), (.int .usize 4)]),
             (.int .usize 0)])))
    .unit))))

/-- The body of `decode_error_03`.  src/utf32_be.rs -/
def unit_utf32_be.decode_error_03 : Expr :=
  (.block
    (.letIn (.bind "data")
      (ints
        [0, 0, 223, 255, 0, 0, 48, 147, 0, 0, 48, 107, 0, 0, 48, 97, 0, 0, 48, 111, 0, 0, 255, 1])
    (.letIn (.bind "buf") (.rep (.int .u8 0) 64)
    (.seq
      (.assertEq
        (.call false "decode_to_str" [(.ref (.var "data")), (.refMut (.var "buf")), (.bool true)])
        (.ctor
          "Err"
          (.struct
            "DecodeError"
            ["cause", "error_range", "output_bytes_written"]
            [(.variant "InvalidData"),
             (.tuple [(.int .usize 0), (.int .usize 4)]),
             (.int .usize 0)])))
    .unit))))

/-- The body of `decode_error_04`.  src/utf32_be.rs -/
def unit_utf32_be.decode_error_04 : Expr :=
  (.block
    (.letIn (.bind "data")
      (ints [0, 0, 48, 83, 0, 17, 0, 0, 0, 0, 48, 107, 0, 0, 48, 97, 0, 0, 48, 111, 0, 0, 255, 1])
    (.letIn (.bind "buf") (.rep (.int .u8 0) 64)
    (.seq
      (.assertEq
        (.call false "decode_to_str" [(.ref (.var "data")), (.refMut (.var "buf")), (.bool true)])
        (.ctor
          "Err"
          (.struct
            "DecodeError"
            ["cause", "error_range", "output_bytes_written"]
            [(.variant "InvalidData"),
             (.tuple [(.int .usize 4), (.int .usize 8)]),
             (.int .usize 3)])))
    (.seq (.assertEq (.ref (.sliceTo (.var "buf") (.int .usize 3))) (.ref (ints [227, 129, 147])))
    .unit)))))

/-- The body of `decode_error_05`.  src/utf32_be.rs -/
def unit_utf32_be.decode_error_05 : Expr :=
  (.block
    (.letIn (.bind "data")
      (ints [0, 0, 48, 83, 0, 0, 216, 0, 0, 0, 48, 107, 0, 0, 48, 97, 0, 0, 48, 111, 0, 0, 255, 1])
    (.letIn (.bind "buf") (.rep (.int .u8 0) 64)
    (.seq
      (.assertEq
        (.call false "decode_to_str" [(.ref (.var "data")), (.refMut (.var "buf")), (.bool true)])
        (.ctor
          "Err"
          (.struct
            "DecodeError"
            ["cause", "error_range", "output_bytes_written"]
            [(.variant "InvalidData"),
             (.tuple [(.int .usize 4), (.int .usize 8)]),
             (.int .usize 3)])))
    (.seq (.assertEq (.ref (.sliceTo (.var "buf") (.int .usize 3))) (.ref (ints [227, 129, 147])))
    .unit)))))

/-- The body of `decode_error_06`.  src/utf32_be.rs -/
def unit_utf32_be.decode_error_06 : Expr :=
  (.block
    (.letIn (.bind "data")
      (ints
        [0, 0, 48, 83, 0, 0, 223, 255, 0, 0, 48, 107, 0, 0, 48, 97, 0, 0, 48, 111, 0, 0, 255, 1])
    (.letIn (.bind "buf") (.rep (.int .u8 0) 64)
    (.seq
      (.assertEq
        (.call false "decode_to_str" [(.ref (.var "data")), (.refMut (.var "buf")), (.bool true)])
        (.ctor
          "Err"
          (.struct
            "DecodeError"
            ["cause", "error_range", "output_bytes_written"]
            [(.variant "InvalidData"),
             (.tuple [(.int .usize 4), (.int .usize 8)]),
             (.int .usize 3)])))
    (.seq (.assertEq (.ref (.sliceTo (.var "buf") (.int .usize 3))) (.ref (ints [227, 129, 147])))
    .unit)))))

/-- The body of `decode_error_07`.  src/utf32_be.rs -/
def unit_utf32_be.decode_error_07 : Expr :=
  (.block
    (.letIn (.bind "data") (ints [0, 1, 246, 58, 0, 1, 246])
    (.letIn (.bind "buf") (.rep (.int .u8 0) 64)
    (.seq
      (.assertEq
        (.call false "decode_to_str" [(.ref (.var "data")), (.refMut (.var "buf")), (.bool true)])
        (.ctor
          "Err"
          (.struct
            "DecodeError"
            ["cause", "error_range", "output_bytes_written"]
            [(.variant "InvalidData"),
             (.tuple [(.int .usize 4), (.int .usize 7)]),
             (.int .usize 4)])))
    (.seq
      (.assertEq (.ref (.sliceTo (.var "buf") (.int .usize 4))) (.ref (ints [240, 159, 152, 186])))
    .unit)))))

/-- The body of `decode_error_08`.  src/utf32_be.rs -/
def unit_utf32_be.decode_error_08 : Expr :=
  (.block
    (.letIn (.bind "data") (ints [0, 1, 246, 58, 0, 1])
    (.letIn (.bind "buf") (.rep (.int .u8 0) 64)
    (.seq
      (.assertEq
        (.call false "decode_to_str" [(.ref (.var "data")), (.refMut (.var "buf")), (.bool true)])
        (.ctor
          "Err"
          (.struct
            "DecodeError"
            ["cause", "error_range", "output_bytes_written"]
            [(.variant "InvalidData"),
             (.tuple [(.int .usize 4), (.int .usize 6)]),
             (.int .usize 4)])))
    (.seq
      (.assertEq (.ref (.sliceTo (.var "buf") (.int .usize 4))) (.ref (ints [240, 159, 152, 186])))
    .unit)))))

/-- The body of `decode_error_09`.  src/utf32_be.rs -/
def unit_utf32_be.decode_error_09 : Expr :=
  (.block
    (.letIn (.bind "data") (ints [0, 1, 246, 58, 0])
    (.letIn (.bind "buf") (.rep (.int .u8 0) 64)
    (.seq
      (.assertEq
        (.call false "decode_to_str" [(.ref (.var "data")), (.refMut (.var "buf")), (.bool true)])
        (.ctor
          "Err"
          (.struct
            "DecodeError"
            ["cause", "error_range", "output_bytes_written"]
            [(.variant "InvalidData"),
             (.tuple [(.int .usize 4), (.int .usize 5)]),
             (.int .usize 4)])))
    (.seq
      (.assertEq (.ref (.sliceTo (.var "buf") (.int .usize 4))) (.ref (ints [240, 159, 152, 186])))
    .unit)))))

/-- the unit tests of src/utf32_be.rs -/
def unit_utf32_be : List Item :=
  [.useSuper,
   .test,
   .fn "encode_01" [] unit_utf32_be.encode_01,
   .test,
   .fn "encode_02" [] unit_utf32_be.encode_02,
   .test,
   .fn "encode_03" [] unit_utf32_be.encode_03,
   .test,
   .fn "encode_04" [] unit_utf32_be.encode_04,
   .test,
   .fn "encode_05" [] unit_utf32_be.encode_05,
   .test,
   .fn "encode_06" [] unit_utf32_be.encode_06,
   .test,
   .fn "decode_01" [] unit_utf32_be.decode_01,
   .test,
   .fn "decode_02" [] unit_utf32_be.decode_02,
   .test,
   .fn "decode_03" [] unit_utf32_be.decode_03,
   .test,
   .fn "decode_04" [] unit_utf32_be.decode_04,
   .test,
   .fn "decode_05" [] unit_utf32_be.decode_05,
   .test,
   .fn "decode_06" [] unit_utf32_be.decode_06,
   .test,
   .fn "decode_07" [] unit_utf32_be.decode_07,
   .test,
   .fn "decode_08" [] unit_utf32_be.decode_08,
   .test,
   .fn "decode_09" [] unit_utf32_be.decode_09,
   .test,
   .fn "decode_error_01" [] unit_utf32_be.decode_error_01,
   .test,
   .fn "decode_error_02" [] unit_utf32_be.decode_error_02,
   .test,
   .fn "decode_error_03" [] unit_utf32_be.decode_error_03,
   .test,
   .fn "decode_error_04" [] unit_utf32_be.decode_error_04,
   .test,
   .fn "decode_error_05" [] unit_utf32_be.decode_error_05,
   .test,
   .fn "decode_error_06" [] unit_utf32_be.decode_error_06,
   .test,
   .fn "decode_error_07" [] unit_utf32_be.decode_error_07,
   .test,
   .fn "decode_error_08" [] unit_utf32_be.decode_error_08,
   .test,
   .fn "decode_error_09" [] unit_utf32_be.decode_error_09]

/-- The body of `encode_01`.  src/utf32_le.rs -/
def unit_utf32_le.encode_01 : Expr :=
  (.block
    (.letIn (.bind "text")
      (.str
        [(Char.ofNat 0x3053),
         (Char.ofNat 0x3093),
         (Char.ofNat 0x306B),
         (Char.ofNat 0x3061),
         (Char.ofNat 0x306F),
         (Char.ofNat 0xFF01)])
    (.letIn (.bind "buf") (.rep (.int .u8 0) 3)
    (.letIn (.tuple
      [(.bind "encoded"),
       (.bind "consumed_count")])
      (.method (.call false "encode_from_str" [(.var "text"), (.refMut (.var "buf"))]) .unwrap [])
    (.seq (.assertEq (.var "consumed_count") (.int .usize 0))
    (.seq (.assertEq (.var "encoded") (.ref (.array [])))
    .unit))))))

/-- The body of `encode_02`.  src/utf32_le.rs -/
def unit_utf32_le.encode_02 : Expr :=
  (.block
    (.letIn (.bind "text")
      (.str
        [(Char.ofNat 0x3053),
         (Char.ofNat 0x3093),
         (Char.ofNat 0x306B),
         (Char.ofNat 0x3061),
         (Char.ofNat 0x306F),
         (Char.ofNat 0xFF01)])
    (.letIn (.bind "buf") (.rep (.int .u8 0) 4)
    (.letIn (.tuple
      [(.bind "encoded"),
       (.bind "consumed_count")])
      (.method (.call false "encode_from_str" [(.var "text"), (.refMut (.var "buf"))]) .unwrap [])
    (.seq (.assertEq (.var "consumed_count") (.int .usize 3))
    (.seq (.assertEq (.var "encoded") (.ref (ints [83, 48, 0, 0])))
    .unit))))))

/-- The body of `encode_03`.  src/utf32_le.rs -/
def unit_utf32_le.encode_03 : Expr :=
  (.block
    (.letIn (.bind "text")
      (.str
        [(Char.ofNat 0x3053),
         (Char.ofNat 0x3093),
         (Char.ofNat 0x306B),
         (Char.ofNat 0x3061),
         (Char.ofNat 0x306F),
         (Char.ofNat 0xFF01)])
    (.letIn (.bind "buf") (.rep (.int .u8 0) 7)
    (.letIn (.tuple
      [(.bind "encoded"),
       (.bind "consumed_count")])
      (.method (.call false "encode_from_str" [(.var "text"), (.refMut (.var "buf"))]) .unwrap [])
    (.seq (.assertEq (.var "consumed_count") (.int .usize 3))
    (.seq (.assertEq (.var "encoded") (.ref (ints [83, 48, 0, 0])))
    .unit))))))

/-- The body of `encode_04`.  src/utf32_le.rs -/
def unit_utf32_le.encode_04 : Expr :=
  (.block
    (.letIn (.bind "text") (.str [(Char.ofNat 0x1F63A), (Char.ofNat 0x1F63C)])
    (.letIn (.bind "buf") (.rep (.int .u8 0) 3)
    (.letIn (.tuple
      [(.bind "encoded"),
       (.bind "consumed_count")])
      (.method (.call false "encode_from_str" [(.var "text"), (.refMut (.var "buf"))]) .unwrap [])
    (.seq (.assertEq (.var "consumed_count") (.int .usize 0))
    (.seq (.assertEq (.var "encoded") (.ref (.array [])))
    .unit))))))

/-- The body of `encode_05`.  src/utf32_le.rs -/
def unit_utf32_le.encode_05 : Expr :=
  (.block
    (.letIn (.bind "text") (.str [(Char.ofNat 0x1F63A), (Char.ofNat 0x1F63C)])
    (.letIn (.bind "buf") (.rep (.int .u8 0) 4)
    (.letIn (.tuple
      [(.bind "encoded"),
       (.bind "consumed_count")])
      (.method (.call false "encode_from_str" [(.var "text"), (.refMut (.var "buf"))]) .unwrap [])
    (.seq (.assertEq (.var "consumed_count") (.int .usize 4))
    (.seq (.assertEq (.var "encoded") (.ref (ints [58, 246, 1, 0])))
    .unit))))))

/-- The body of `encode_06`.  src/utf32_le.rs -/
def unit_utf32_le.encode_06 : Expr :=
  (.block
    (.letIn (.bind "text") (.str [(Char.ofNat 0x1F63A), (Char.ofNat 0x1F63C)])
    (.letIn (.bind "buf") (.rep (.int .u8 0) 7)
    (.letIn (.tuple
      [(.bind "encoded"),
       (.bind "consumed_count")])
      (.method (.call false "encode_from_str" [(.var "text"), (.refMut (.var "buf"))]) .unwrap [])
    (.seq (.assertEq (.var "consumed_count") (.int .usize 4))
    (.seq (.assertEq (.var "encoded") (.ref (ints [58, 246, 1, 0])))
    .unit))))))

/-- The body of `decode_01`.  src/utf32_le.rs -/
def unit_utf32_le.decode_01 : Expr :=
  (.block
    (.letIn (.bind "data")
      (ints [83, 48, 0, 0, 147, 48, 0, 0, 107, 48, 0, 0, 97, 48, 0, 0, 111, 48, 0, 0, 1, 255, 0, 0])
    (.letIn (.bind "buf") (.rep (.int .u8 0) 2)
    (.letIn (.tuple
      [(.bind "decoded"),
       (.bind "consumed_count")])
      (.method
        (.call false "decode_to_str" [(.ref (.var "data")), (.refMut (.var "buf")), (.bool true)])
        .unwrap
        [])
    (.seq (.assertEq (.var "consumed_count") (.int .usize 0))
    (.seq (.assertEq (.var "decoded") (.str []))
    .unit))))))

/-- The body of `decode_02`.  src/utf32_le.rs -/
def unit_utf32_le.decode_02 : Expr :=
  (.block
    (.letIn (.bind "data")
      (ints [83, 48, 0, 0, 147, 48, 0, 0, 107, 48, 0, 0, 97, 48, 0, 0, 111, 48, 0, 0, 1, 255, 0, 0])
    (.letIn (.bind "buf") (.rep (.int .u8 0) 3)
    (.letIn (.tuple
      [(.bind "decoded"),
       (.bind "consumed_count")])
      (.method
        (.call false "decode_to_str" [(.ref (.var "data")), (.refMut (.var "buf")), (.bool true)])
        .unwrap
        [])
    (.seq (.assertEq (.var "consumed_count") (.int .usize 4))
    (.seq (.assertEq (.var "decoded") (.str [(Char.ofNat 0x3053)]))
    .unit))))))

/-- The body of `decode_03`.  src/utf32_le.rs -/
def unit_utf32_le.decode_03 : Expr :=
  (.block
    (.letIn (.bind "data")
      (ints [83, 48, 0, 0, 147, 48, 0, 0, 107, 48, 0, 0, 97, 48, 0, 0, 111, 48, 0, 0, 1, 255, 0, 0])
    (.letIn (.bind "buf") (.rep (.int .u8 0) 5)
    (.letIn (.tuple
      [(.bind "decoded"),
       (.bind "consumed_count")])
      (.method
        (.call false "decode_to_str" [(.ref (.var "data")), (.refMut (.var "buf")), (.bool true)])
        .unwrap
        [])
    (.seq (.assertEq (.var "consumed_count") (.int .usize 4))
    (.seq (.assertEq (.var "decoded") (.str [(Char.ofNat 0x3053)]))
    .unit))))))

/-- The body of `decode_04`.  src/utf32_le.rs -/
def unit_utf32_le.decode_04 : Expr :=
  (.block
    (.letIn (.bind "data") (ints [58, 246, 1, 0, 60, 246, 1, 0])
    (.letIn (.bind "buf") (.rep (.int .u8 0) 3)
    (.letIn (.tuple
      [(.bind "decoded"),
       (.bind "consumed_count")])
      (.method
        (.call false "decode_to_str" [(.ref (.var "data")), (.refMut (.var "buf")), (.bool true)])
        .unwrap
        [])
    (.seq (.assertEq (.var "consumed_count") (.int .usize 0))
    (.seq (.assertEq (.var "decoded") (.str []))
    .unit))))))

/-- The body of `decode_05`.  src/utf32_le.rs -/
def unit_utf32_le.decode_05 : Expr :=
  (.block
    (.letIn (.bind "data") (ints [58, 246, 1, 0, 60, 246, 1, 0])
    (.letIn (.bind "buf") (.rep (.int .u8 0) 4)
    (.letIn (.tuple
      [(.bind "decoded"),
       (.bind "consumed_count")])
      (.method
        (.call false "decode_to_str" [(.ref (.var "data")), (.refMut (.var "buf")), (.bool true)])
        .unwrap
        [])
    (.seq (.assertEq (.var "consumed_count") (.int .usize 4))
    (.seq (.assertEq (.var "decoded") (.str [(Char.ofNat 0x1F63A)]))
    .unit))))))

/-- The body of `decode_06`.  src/utf32_le.rs -/
def unit_utf32_le.decode_06 : Expr :=
  (.block
    (.letIn (.bind "data") (ints [58, 246, 1, 0, 60, 246, 1, 0])
    (.letIn (.bind "buf") (.rep (.int .u8 0) 7)
    (.letIn (.tuple
      [(.bind "decoded"),
       (.bind "consumed_count")])
      (.method
        (.call false "decode_to_str" [(.ref (.var "data")), (.refMut (.var "buf")), (.bool true)])
        .unwrap
        [])
    (.seq (.assertEq (.var "consumed_count") (.int .usize 4))
    (.seq (.assertEq (.var "decoded") (.str [(Char.ofNat 0x1F63A)]))
    .unit))))))

/-- The body of `decode_07`.  src/utf32_le.rs -/
def unit_utf32_le.decode_07 : Expr :=
  (.block
    (.letIn (.bind "data") (ints [58, 246, 1, 0, 60, 246, 1])
    (.letIn (.bind "buf") (.rep (.int .u8 0) 64)
    (.letIn (.tuple
      [(.bind "decoded"),
       (.bind "consumed_count")])
      (.method
        (.call false "decode_to_str" [(.ref (.var "data")), (.refMut (.var "buf")), (.bool false)])
        .unwrap
        [])
    (.seq (.assertEq (.var "consumed_count") (.int .usize 4))
    (.seq (.assertEq (.var "decoded") (.str [(Char.ofNat 0x1F63A)]))
    .unit))))))

/-- The body of `decode_08`.  src/utf32_le.rs -/
def unit_utf32_le.decode_08 : Expr :=
  (.block
    (.letIn (.bind "data") (ints [58, 246, 1, 0, 60, 246])
    (.letIn (.bind "buf") (.rep (.int .u8 0) 64)
    (.letIn (.tuple
      [(.bind "decoded"),
       (.bind "consumed_count")])
      (.method
        (.call false "decode_to_str" [(.ref (.var "data")), (.refMut (.var "buf")), (.bool false)])
        .unwrap
        [])
    (.seq (.assertEq (.var "consumed_count") (.int .usize 4))
    (.seq (.assertEq (.var "decoded") (.str [(Char.ofNat 0x1F63A)]))
    .unit))))))

/-- The body of `decode_09`.  src/utf32_le.rs -/
def unit_utf32_le.decode_09 : Expr :=
  (.block
    (.letIn (.bind "data") (ints [58, 246, 1, 0, 60])
    (.letIn (.bind "buf") (.rep (.int .u8 0) 64)
    (.letIn (.tuple
      [(.bind "decoded"),
       (.bind "consumed_count")])
      (.method
        (.call false "decode_to_str" [(.ref (.var "data")), (.refMut (.var "buf")), (.bool false)])
        .unwrap
        [])
    (.seq (.assertEq (.var "consumed_count") (.int .usize 4))
    (.seq (.assertEq (.var "decoded") (.str [(Char.ofNat 0x1F63A)]))
    .unit))))))

/-- The body of `decode_error_01`.  src/utf32_le.rs -/
def unit_utf32_le.decode_error_01 : Expr :=
  (.block
    (.letIn (.bind "data")
      (ints [0, 0, 17, 0, 147, 48, 0, 0, 107, 48, 0, 0, 97, 48, 0, 0, 111, 48, 0, 0, 1, 255, 0, 0])
    (.letIn (.bind "buf") (.rep (.int .u8 0) 2)
    (.seq
      (.assertEq
        (.call false "decode_to_str" [(.ref (.var "data")), (.refMut (.var "buf")), (.bool true)])
        (.ctor
          "Err"
          (.struct
            "DecodeError"
            ["cause", "error_range", "output_bytes_written"]
            [(.variant "InvalidData"),
             (.tuple [(.int .usize 0), (.int .usize 4)]),
             (.int .usize 0)])))
    .unit))))

/-- The body of `decode_error_02`.  src/utf32_le.rs -/
def unit_utf32_le.decode_error_02 : Expr :=
  (.block
    (.letIn (.bind "data")
      (ints [0, 216, 0, 0, 147, 48, 0, 0, 107, 48, 0, 0, 97, 48, 0, 0, 111, 48, 0, 0, 1, 255, 0, 0])
    (.letIn (.bind "buf") (.rep (.int .u8 0) 2)
    (.seq
      (.assertEq
        (.call false "decode_to_str" [(.ref (.var "data")), (.refMut (.var "buf")), (.bool true)])
        (.ctor
          "Err"
          (.struct
            "DecodeError"
            ["cause", "error_range", "output_bytes_written"]
            [(.variant "InvalidData"),
             (.tuple [(.int .usize 0), (.int .usize 4)]),
             (.int .usize 0)])))
    .unit))))

/-- The body of `decode_error_03`.  src/utf32_le.rs -/
def unit_utf32_le.decode_error_03 : Expr :=
  (.block
    (.letIn (.bind "data")
      (ints
        [255, 223, 0, 0, 147, 48, 0, 0, 107, 48, 0, 0, 97, 48, 0, 0, 111, 48, 0, 0, 1, 255, 0, 0])
    (.letIn (.bind "buf") (.rep (.int .u8 0) 64)
    (.seq
      (.assertEq
        (.call false "decode_to_str" [(.ref (.var "data")), (.refMut (.var "buf")), (.bool true)])
        (.ctor
          "Err"
          (.struct
            "DecodeError"
            ["cause", "error_range", "output_bytes_written"]
            [(.variant "InvalidData"),
             (.tuple [(.int .usize 0), (.int .usize 4)]),
             (.int .usize 0)])))
    .unit))))

/-- The body of `decode_error_04`.  src/utf32_le.rs -/
def unit_utf32_le.decode_error_04 : Expr :=
  (.block
    (.letIn (.bind "data")
      (ints [83, 48, 0, 0, 0, 0, 17, 0, 107, 48, 0, 0, 97, 48, 0, 0, 111, 48, 0, 0, 1, 255, 0, 0])
    (.letIn (.bind "buf") (.rep (.int .u8 0) 64)
    (.seq
      (.assertEq
        (.call false "decode_to_str" [(.ref (.var "data")), (.refMut (.var "buf")), (.bool true)])
        (.ctor
          "Err"
          (.struct
            "DecodeError"
            ["cause", "error_range", "output_bytes_written"]
            [(.variant "InvalidData"),
             (.tuple [(.int .usize 4), (.int .usize 8)]),
             (.int .usize 3)])))
    (.seq (.assertEq (.ref (.sliceTo (.var "buf") (.int .usize 3))) (.ref (ints [227, 129, 147])))
    .unit)))))

/-- The body of `decode_error_05`.  src/utf32_le.rs -/
def unit_utf32_le.decode_error_05 : Expr :=
  (.block
    (.letIn (.bind "data")
      (ints [83, 48, 0, 0, 0, 216, 0, 0, 107, 48, 0, 0, 97, 48, 0, 0, 111, 48, 0, 0, 1, 255, 0, 0])
    (.letIn (.bind "buf") (.rep (.int .u8 0) 64)
    (.seq
      (.assertEq
        (.call false "decode_to_str" [(.ref (.var "data")), (.refMut (.var "buf")), (.bool true)])
        (.ctor
          "Err"
          (.struct
            "DecodeError"
            ["cause", "error_range", "output_bytes_written"]
            [(.variant "InvalidData"),
             (.tuple [(.int .usize 4), (.int .usize 8)]),
             (.int .usize 3)])))
    (.seq (.assertEq (.ref (.sliceTo (.var "buf") (.int .usize 3))) (.ref (ints [227, 129, 147])))
    .unit)))))

/-- The body of `decode_error_06`.  src/utf32_le.rs -/
def unit_utf32_le.decode_error_06 : Expr :=
  (.block
    (.letIn (.bind "data")
      (ints
        [83, 48, 0, 0, 255, 223, 0, 0, 107, 48, 0, 0, 97, 48, 0, 0, 111, 48, 0, 0, 1, 255, 0, 0])
    (.letIn (.bind "buf") (.rep (.int .u8 0) 64)
    (.seq
      (.assertEq
        (.call false "decode_to_str" [(.ref (.var "data")), (.refMut (.var "buf")), (.bool true)])
        (.ctor
          "Err"
          (.struct
            "DecodeError"
            ["cause", "error_range", "output_bytes_written"]
            [(.variant "InvalidData"),
             (.tuple [(.int .usize 4), (.int .usize 8)]),
             (.int .usize 3)])))
    (.seq (.assertEq (.ref (.sliceTo (.var "buf") (.int .usize 3))) (.ref (ints [227, 129, 147])))
    .unit)))))

/-- The body of `decode_error_07`.  src/utf32_le.rs -/
def unit_utf32_le.decode_error_07 : Expr :=
  (.block
    (.letIn (.bind "data") (ints [58, 246, 1, 0, 60, 246, 1])
    (.letIn (.bind "buf") (.rep (.int .u8 0) 64)
    (.seq
      (.assertEq
        (.call false "decode_to_str" [(.ref (.var "data")), (.refMut (.var "buf")), (.bool true)])
        (.ctor
          "Err"
          (.struct
            "DecodeError"
            ["cause", "error_range", "output_bytes_written"]
            [(.variant "InvalidData"),
             (.tuple [(.int .usize 4), (.int .usize 7)]),
             (.int .usize 4)])))
    (.seq
      (.assertEq (.ref (.sliceTo (.var "buf") (.int .usize 4))) (.ref (ints [240, 159, 152, 186])))
    .unit)))))

/-- The body of `decode_error_08`.  src/utf32_le.rs -/
def unit_utf32_le.decode_error_08 : Expr :=
  (.block
    (.letIn (.bind "data") (ints [58, 246, 1, 0, 60, 246])
    (.letIn (.bind "buf") (.rep (.int .u8 0) 64)
    (.seq
      (.assertEq
        (.call false "decode_to_str" [(.ref (.var "data")), (.refMut (.var "buf")), (.bool true)])
        (.ctor
          "Err"
          (.struct
            "DecodeError"
            ["cause", "error_range", "output_bytes_written"]
            [(.variant "InvalidData"),
             (.tuple [(.int .usize 4), (.int .usize 6)]),
             (.int .usize 4)])))
    (.seq
      (.assertEq (.ref (.sliceTo (.var "buf") (.int .usize 4))) (.ref (ints [240, 159, 152, 186])))
    .unit)))))

/-- The body of `decode_error_09`.  src/utf32_le.rs -/
def unit_utf32_le.decode_error_09 : Expr :=
  (.block
    (.letIn (.bind "data") (ints [58, 246, 1, 0, 60])
    (.letIn (.bind "buf") (.rep (.int .u8 0) 64)
    (.seq
      (.assertEq
        (.call false "decode_to_str" [(.ref (.var "data")), (.refMut (.var "buf")), (.bool true)])
        (.ctor
          "Err"
          (.struct
            "DecodeError"
            ["cause", "error_range", "output_bytes_written"]
            [(.variant "InvalidData"),
             (.tuple [(.int .usize 4), (.int .usize 5)]),
             (.int .usize 4)])))
    (.seq
      (.assertEq (.ref (.sliceTo (.var "buf") (.int .usize 4))) (.ref (ints [240, 159, 152, 186])))
    .unit)))))

/-- the unit tests of src/utf32_le.rs -/
def unit_utf32_le : List Item :=
  [.useSuper,
   .test,
   .fn "encode_01" [] unit_utf32_le.encode_01,
   .test,
   .fn "encode_02" [] unit_utf32_le.encode_02,
   .test,
   .fn "encode_03" [] unit_utf32_le.encode_03,
   .test,
   .fn "encode_04" [] unit_utf32_le.encode_04,
   .test,
   .fn "encode_05" [] unit_utf32_le.encode_05,
   .test,
   .fn "encode_06" [] unit_utf32_le.encode_06,
   .test,
   .fn "decode_01" [] unit_utf32_le.decode_01,
   .test,
   .fn "decode_02" [] unit_utf32_le.decode_02,
   .test,
   .fn "decode_03" [] unit_utf32_le.decode_03,
   .test,
   .fn "decode_04" [] unit_utf32_le.decode_04,
   .test,
   .fn "decode_05" [] unit_utf32_le.decode_05,
   .test,
   .fn "decode_06" [] unit_utf32_le.decode_06,
   .test,
   .fn "decode_07" [] unit_utf32_le.decode_07,
   .test,
   .fn "decode_08" [] unit_utf32_le.decode_08,
   .test,
   .fn "decode_09" [] unit_utf32_le.decode_09,
   .test,
   .fn "decode_error_01" [] unit_utf32_le.decode_error_01,
   .test,
   .fn "decode_error_02" [] unit_utf32_le.decode_error_02,
   .test,
   .fn "decode_error_03" [] unit_utf32_le.decode_error_03,
   .test,
   .fn "decode_error_04" [] unit_utf32_le.decode_error_04,
   .test,
   .fn "decode_error_05" [] unit_utf32_le.decode_error_05,
   .test,
   .fn "decode_error_06" [] unit_utf32_le.decode_error_06,
   .test,
   .fn "decode_error_07" [] unit_utf32_le.decode_error_07,
   .test,
   .fn "decode_error_08" [] unit_utf32_le.decode_error_08,
   .test,
   .fn "decode_error_09" [] unit_utf32_le.decode_error_09]

/-- The body of `correct_decode`.  src/shiftjis_whatwg.rs -/
def unit_shiftjis_whatwg.correct_decode : Expr :=
  (.block
    (.letIn (.bind "buf") (.rep (.int .u8 0) 256)
    (.seq
      (.assertEq
        (.call false "decode_to_str" [(.var "input"), (.refMut (.var "buf")), (.bool true)])
        (.ctor "Ok" (.tuple [(.var "expected_output"), (.method (.var "input") .len [])])))
    .unit)))

/-- The body of `error_decode`.  src/shiftjis_whatwg.rs -/
def unit_shiftjis_whatwg.error_decode : Expr :=
  (.block
    (.letIn (.bind "buf") (.rep (.int .u8 0) 256)
    (.seq
      (.assertEq
        (.call false "decode_to_str" [(.var "input"), (.refMut (.var "buf")), (.bool true)])
        (.ctor
          "Err"
          (.struct
            "DecodeError"
            ["cause", "error_range", "output_bytes_written"]
            [(.variant "InvalidData"), (.var "error_range"), (.var "bytes_written")])))
    .unit)))

/-- The body of `correct_encode`.  src/shiftjis_whatwg.rs -/
def unit_shiftjis_whatwg.correct_encode : Expr :=
  (.block
    (.letIn (.bind "buf") (.rep (.int .u8 0) 256)
    (.seq
      (.assertEq
        (.call false "encode_from_str" [(.var "input"), (.refMut (.var "buf"))])
        (.ctor "Ok" (.tuple [(.var "expected_output"), (.method (.var "input") .len [])])))
    .unit)))

/-- The body of `decode_01`.  src/shiftjis_whatwg.rs -/
def unit_shiftjis_whatwg.decode_01 : Expr :=
  (.block
    (.seq (.call false "correct_decode" [(.array []), (.ref (.str []))])
    (.seq (.call false "correct_decode" [(u8s [97, 98]), (.str ['a', 'b'])])
    (.seq (.call false "correct_decode" [(u8s [161]), (.str [(Char.ofNat 0xFF61)])])
    (.seq (.call false "correct_decode" [(u8s [223]), (.str [(Char.ofNat 0xFF9F)])])
    (.seq (.call false "correct_decode" [(u8s [240, 64]), (.str [(Char.ofNat 0xE000)])])
    (.seq (.call false "correct_decode" [(u8s [249, 252]), (.str [(Char.ofNat 0xE757)])])
    (.seq (.call false "correct_decode" [(u8s [250, 64]), (.str [(Char.ofNat 0x2170)])])
    (.seq (.call false "correct_decode" [(u8s [129, 64]), (.str [(Char.ofNat 0x3000)])])
    (.seq (.call false "correct_decode" [(u8s [238, 252]), (.str [(Char.ofNat 0xFF02)])])
    (.seq (.call false "correct_decode" [(u8s [250, 64]), (.str [(Char.ofNat 0x2170)])])
    (.seq (.call false "correct_decode" [(u8s [252, 75]), (.str [(Char.ofNat 0x9ED1)])])
    .unit))))))))))))

/-- The body of `decode_02`.  src/shiftjis_whatwg.rs -/
def unit_shiftjis_whatwg.decode_02 : Expr :=
  (.block
    (.letIn (.bind "data")
      (u8s [141, 161, 147, 250, 130, 205, 130, 162, 130, 162, 130, 230, 129, 73])
    (.letIn (.bind "buf") (.rep (.int .u8 0) 2)
    (.letIn (.tuple
      [(.bind "decoded"),
       (.bind "consumed_count")])
      (.method
        (.call false "decode_to_str" [(.var "data"), (.refMut (.var "buf")), (.bool true)])
        .unwrap
        [])
    (.seq (.assertEq (.var "consumed_count") (.int .usize 0))
    (.seq (.assertEq (.var "decoded") (.str []))
    .unit))))))

/-- The body of `decode_03`.  src/shiftjis_whatwg.rs -/
def unit_shiftjis_whatwg.decode_03 : Expr :=
  (.block
    (.letIn (.bind "data")
      (u8s [141, 161, 147, 250, 130, 205, 130, 162, 130, 162, 130, 230, 129, 73])
    (.letIn (.bind "buf") (.rep (.int .u8 0) 3)
    (.letIn (.tuple
      [(.bind "decoded"),
       (.bind "consumed_count")])
      (.method
        (.call false "decode_to_str" [(.var "data"), (.refMut (.var "buf")), (.bool true)])
        .unwrap
        [])
    (.seq (.assertEq (.var "consumed_count") (.int .usize 2))
    (.seq (.assertEq (.var "decoded") (.str [(Char.ofNat 0x4ECA)]))
    .unit))))))

/-- The body of `decode_04`.  src/shiftjis_whatwg.rs -/
def unit_shiftjis_whatwg.decode_04 : Expr :=
  (.block
    (.letIn (.bind "data")
      (u8s [141, 161, 147, 250, 130, 205, 130, 162, 130, 162, 130, 230, 129, 73])
    (.letIn (.bind "buf") (.rep (.int .u8 0) 5)
    (.letIn (.tuple
      [(.bind "decoded"),
       (.bind "consumed_count")])
      (.method
        (.call false "decode_to_str" [(.var "data"), (.refMut (.var "buf")), (.bool true)])
        .unwrap
        [])
    (.seq (.assertEq (.var "consumed_count") (.int .usize 2))
    (.seq (.assertEq (.var "decoded") (.str [(Char.ofNat 0x4ECA)]))
    .unit))))))

/-- The body of `decode_05`.  src/shiftjis_whatwg.rs -/
def unit_shiftjis_whatwg.decode_05 : Expr :=
  (.block
    (.letIn (.bind "data")
      (u8s [141, 161, 129, 63, 130, 205, 130, 162, 130, 162, 130, 230, 129, 73])
    (.letIn (.bind "buf") (.rep (.int .u8 0) 3)
    (.letIn (.tuple
      [(.bind "decoded"),
       (.bind "consumed_count")])
      (.method
        (.call false "decode_to_str" [(.var "data"), (.refMut (.var "buf")), (.bool true)])
        .unwrap
        [])
    (.seq (.assertEq (.var "consumed_count") (.int .usize 2))
    (.seq (.assertEq (.var "decoded") (.str [(Char.ofNat 0x4ECA)]))
    .unit))))))

/-- The body of `decode_06`.  src/shiftjis_whatwg.rs -/
def unit_shiftjis_whatwg.decode_06 : Expr :=
  (.block
    (.letIn (.bind "data") (u8s [141, 161, 147, 250, 97, 214, 130, 205, 98])
    (.letIn (.bind "buf") (.rep (.int .u8 0) 14)
    (.letIn (.tuple
      [(.bind "encoded"),
       (.bind "consumed_count")])
      (.method
        (.call false "decode_to_str" [(.var "data"), (.refMut (.var "buf")), (.bool true)])
        .unwrap
        [])
    (.seq (.assertEq (.var "consumed_count") (.int .usize 9))
    (.seq
      (.assertEq
        (.var "encoded")
        (.str
          [(Char.ofNat 0x4ECA),
           (Char.ofNat 0x65E5),
           'a',
           (Char.ofNat 0xFF96),
           (Char.ofNat 0x306F),
           'b']))
    .unit))))))

/-- The body of `decode_07`.  src/shiftjis_whatwg.rs -/
def unit_shiftjis_whatwg.decode_07 : Expr :=
  (.block
    (.letIn (.bind "data") (u8s [141, 161, 147, 250, 130, 205, 130, 162, 130, 162, 130, 230, 129])
    (.letIn (.bind "buf") (.rep (.int .u8 0) 64)
    (.letIn (.tuple
      [(.bind "decoded"),
       (.bind "consumed_count")])
      (.method
        (.call false "decode_to_str" [(.var "data"), (.refMut (.var "buf")), (.bool false)])
        .unwrap
        [])
    (.seq (.assertEq (.var "consumed_count") (.int .usize 12))
    (.seq
      (.assertEq
        (.var "decoded")
        (.str
          [(Char.ofNat 0x4ECA),
           (Char.ofNat 0x65E5),
           (Char.ofNat 0x306F),
           (Char.ofNat 0x3044),
           (Char.ofNat 0x3044),
           (Char.ofNat 0x3088)]))
    .unit))))))

/-- The body of `decode_error_01`.  src/shiftjis_whatwg.rs -/
def unit_shiftjis_whatwg.decode_error_01 : Expr :=
  (.block
    (.seq
      (.call
        false
        "error_decode"
        [(u8s [160]), (.tuple [(.int .usize 0), (.int .usize 1)]), (.int .usize 0)])
    (.seq
      (.call
        false
        "error_decode"
        [(u8s [160, 43]), (.tuple [(.int .usize 0), (.int .usize 1)]), (.int .usize 0)])
    (.seq
      (.call
        false
        "error_decode"
        [(u8s [224, 43]), (.tuple [(.int .usize 0), (.int .usize 1)]), (.int .usize 0)])
    (.seq
      (.call
        false
        "error_decode"
        [(u8s [239, 252]), (.tuple [(.int .usize 0), (.int .usize 2)]), (.int .usize 0)])
    (.seq
      (.call
        false
        "error_decode"
        [(u8s [129, 63]), (.tuple [(.int .usize 0), (.int .usize 1)]), (.int .usize 0)])
    (.seq
      (.call
        false
        "error_decode"
        [(u8s [238, 253]), (.tuple [(.int .usize 0), (.int .usize 2)]), (.int .usize 0)])
    (.seq
      (.call
        false
        "error_decode"
        [(u8s [250, 63]), (.tuple [(.int .usize 0), (.int .usize 1)]), (.int .usize 0)])
    (.seq
      (.call
        false
        "error_decode"
        [(u8s [252, 76]), (.tuple [(.int .usize 0), (.int .usize 1)]), (.int .usize 0)])
    .unit)))))))))

/-- The body of `decode_error_02`.  src/shiftjis_whatwg.rs -/
def unit_shiftjis_whatwg.decode_error_02 : Expr :=
  (.block
    (.letIn (.bind "data")
      (u8s [129, 63, 147, 250, 130, 205, 130, 162, 130, 162, 130, 230, 129, 73])
    (.letIn (.bind "buf") (.rep (.int .u8 0) 2)
    (.letIn (.bind "error")
      (.call false "decode_to_str" [(.var "data"), (.refMut (.var "buf")), (.bool true)])
    (.seq
      (.assertEq
        (.var "error")
        (.ctor
          "Err"
          (.struct
            "DecodeError"
            ["cause", "error_range", "output_bytes_written"]
            [(.variant "InvalidData"),
             (.tuple [(.int .usize 0), (.int .usize 1)]),
             (.int .usize 0)])))
    .unit)))))

/-- The body of `decode_error_03`.  src/shiftjis_whatwg.rs -/
def unit_shiftjis_whatwg.decode_error_03 : Expr :=
  (.block
    (.letIn (.bind "data")
      (u8s [141, 161, 129, 63, 130, 205, 130, 162, 130, 162, 130, 230, 129, 73])
    (.letIn (.bind "buf") (.rep (.int .u8 0) 4)
    (.seq
      (.block
        (.letIn (.bind "error")
          (.call false "decode_to_str" [(.var "data"), (.refMut (.var "buf")), (.bool true)])
        (.seq
          (.assertEq
            (.var "error")
            (.ctor
              "Err"
              (.struct
                "DecodeError"
                ["cause", "error_range", "output_bytes_written"]
                [(.variant "InvalidData"),
                 (.tuple [(.int .usize 2), (.int .usize 3)]),
                 (.int .usize 3)])))
        .unit)))
    (.seq (.assertEq (.ref (.sliceTo (.var "buf") (.int .usize 3))) (u8s [228, 187, 138]))
    .unit)))))

/-- The body of `decode_error_04`.  src/shiftjis_whatwg.rs -/
def unit_shiftjis_whatwg.decode_error_04 : Expr :=
  (.block
    (.letIn (.bind "data")
      (u8s [141, 161, 147, 250, 130, 205, 129, 63, 130, 162, 130, 230, 129, 73])
    (.letIn (.bind "buf") (.rep (.int .u8 0) 64)
    (.seq
      (.block
        (.letIn (.bind "error")
          (.call false "decode_to_str" [(.var "data"), (.refMut (.var "buf")), (.bool true)])
        (.seq
          (.assertEq
            (.var "error")
            (.ctor
              "Err"
              (.struct
                "DecodeError"
                ["cause", "error_range", "output_bytes_written"]
                [(.variant "InvalidData"),
                 (.tuple [(.int .usize 6), (.int .usize 7)]),
                 (.int .usize 9)])))
        .unit)))
    (.seq
      (.assertEq
        (.ref (.sliceTo (.var "buf") (.int .usize 9)))
        (u8s [228, 187, 138, 230, 151, 165, 227, 129, 175]))
    .unit)))))

/-- The body of `decode_error_05`.  src/shiftjis_whatwg.rs -/
def unit_shiftjis_whatwg.decode_error_05 : Expr :=
  (.block
    (.letIn (.bind "data") (u8s [141, 161, 147, 250, 130, 205, 130, 162, 130, 162, 130, 230, 129])
    (.letIn (.bind "buf") (.rep (.int .u8 0) 64)
    (.seq
      (.block
        (.letIn (.bind "error")
          (.call false "decode_to_str" [(.var "data"), (.refMut (.var "buf")), (.bool true)])
        (.seq
          (.assertEq
            (.var "error")
            (.ctor
              "Err"
              (.struct
                "DecodeError"
                ["cause", "error_range", "output_bytes_written"]
                [(.variant "InvalidData"),
                 (.tuple [(.int .usize 12), (.int .usize 13)]),
                 (.int .usize 18)])))
        .unit)))
    (.seq
      (.assertEq
        (.ref (.sliceTo (.var "buf") (.int .usize 18)))
        (.method
          (.str
            [(Char.ofNat 0x4ECA),
             (Char.ofNat 0x65E5),
             (Char.ofNat 0x306F),
             (Char.ofNat 0x3044),
             (Char.ofNat 0x3044),
             (Char.ofNat 0x3088)])
          .as_bytes
          []))
    .unit)))))

/-- The body of `encode_01`.  src/shiftjis_whatwg.rs -/
def unit_shiftjis_whatwg.encode_01 : Expr :=
  (.block
    (.seq (.call false "correct_encode" [(.str []), (.array [])])
    (.seq (.call false "correct_encode" [(.str ['a', 'b']), (u8s [97, 98])])
    (.seq (.call false "correct_encode" [(.str [(Char.ofNat 0x80)]), (u8s [128])])
    (.seq (.call false "correct_encode" [(.str [(Char.ofNat 0xA5)]), (u8s [92])])
    (.seq (.call false "correct_encode" [(.str [(Char.ofNat 0x203E)]), (u8s [126])])
    (.seq (.call false "correct_encode" [(.str [(Char.ofNat 0x2212)]), (u8s [129, 124])])
    (.seq (.call false "correct_encode" [(.str [(Char.ofNat 0xFF61)]), (u8s [161])])
    (.seq (.call false "correct_encode" [(.str [(Char.ofNat 0xFF9F)]), (u8s [223])])
    (.seq (.call false "correct_encode" [(.str [(Char.ofNat 0xE000)]), (u8s [240, 64])])
    (.seq (.call false "correct_encode" [(.str [(Char.ofNat 0xE757)]), (u8s [249, 252])])
    (.seq (.call false "correct_encode" [(.str [(Char.ofNat 0x3000)]), (u8s [129, 64])])
    .unit))))))))))))

/-- The body of `encode_02`.  src/shiftjis_whatwg.rs -/
def unit_shiftjis_whatwg.encode_02 : Expr :=
  (.block
    (.letIn (.bind "text")
      (.str
        [(Char.ofNat 0x4ECA),
         (Char.ofNat 0x65E5),
         (Char.ofNat 0x306F),
         (Char.ofNat 0x3044),
         (Char.ofNat 0x3044),
         (Char.ofNat 0x3088),
         (Char.ofNat 0xFF01)])
    (.letIn (.bind "buf") (.rep (.int .u8 0) 1)
    (.letIn (.tuple
      [(.bind "encoded"),
       (.bind "consumed_count")])
      (.method (.call false "encode_from_str" [(.var "text"), (.refMut (.var "buf"))]) .unwrap [])
    (.seq (.assertEq (.var "consumed_count") (.int .usize 0))
    (.seq (.assertEq (.var "encoded") (.ref (.array [])))
    .unit))))))

/-- The body of `encode_03`.  src/shiftjis_whatwg.rs -/
def unit_shiftjis_whatwg.encode_03 : Expr :=
  (.block
    (.letIn (.bind "text")
      (.str
        [(Char.ofNat 0x4ECA),
         (Char.ofNat 0x65E5),
         (Char.ofNat 0x306F),
         (Char.ofNat 0x3044),
         (Char.ofNat 0x3044),
         (Char.ofNat 0x3088),
         (Char.ofNat 0xFF01)])
    (.letIn (.bind "buf") (.rep (.int .u8 0) 2)
    (.letIn (.tuple
      [(.bind "encoded"),
       (.bind "consumed_count")])
      (.method (.call false "encode_from_str" [(.var "text"), (.refMut (.var "buf"))]) .unwrap [])
    (.seq (.assertEq (.var "consumed_count") (.int .usize 3))
    (.seq (.assertEq (.var "encoded") (u8s [141, 161]))
    .unit))))))

/-- The body of `encode_04`.  src/shiftjis_whatwg.rs -/
def unit_shiftjis_whatwg.encode_04 : Expr :=
  (.block
    (.letIn (.bind "text")
      (.str
        [(Char.ofNat 0x4ECA),
         (Char.ofNat 0x65E5),
         (Char.ofNat 0x306F),
         (Char.ofNat 0x3044),
         (Char.ofNat 0x3044),
         (Char.ofNat 0x3088),
         (Char.ofNat 0xFF01)])
    (.letIn (.bind "buf") (.rep (.int .u8 0) 3)
    (.letIn (.tuple
      [(.bind "encoded"),
       (.bind "consumed_count")])
      (.method (.call false "encode_from_str" [(.var "text"), (.refMut (.var "buf"))]) .unwrap [])
    (.seq (.assertEq (.var "consumed_count") (.int .usize 3))
    (.seq (.assertEq (.var "encoded") (u8s [141, 161]))
    .unit))))))

/-- The body of `encode_05`.  src/shiftjis_whatwg.rs -/
def unit_shiftjis_whatwg.encode_05 : Expr :=
  (.block
    (.letIn (.bind "text")
      (.str
        [(Char.ofNat 0x4ECA),
         (Char.ofNat 0x65E5),
         'a',
         (Char.ofNat 0xFF96),
         (Char.ofNat 0x306F),
         'b',
         (Char.ofNat 0x3044),
         (Char.ofNat 0x3044),
         (Char.ofNat 0x3088),
         (Char.ofNat 0xFF01)])
    (.letIn (.bind "buf") (.rep (.int .u8 0) 9)
    (.letIn (.tuple
      [(.bind "encoded"),
       (.bind "consumed_count")])
      (.method (.call false "encode_from_str" [(.var "text"), (.refMut (.var "buf"))]) .unwrap [])
    (.seq (.assertEq (.var "consumed_count") (.int .usize 14))
    (.seq (.assertEq (.var "encoded") (u8s [141, 161, 147, 250, 97, 214, 130, 205, 98]))
    .unit))))))

/-- The body of `encode_06`.  src/shiftjis_whatwg.rs -/
def unit_shiftjis_whatwg.encode_06 : Expr :=
  (.block
    (.letIn (.bind "text")
      (.str
        [(Char.ofNat 0x4ECA),
         (Char.ofNat 0x65E5),
         (Char.ofNat 0x1F63A),
         (Char.ofNat 0x306F),
         (Char.ofNat 0x3044),
         (Char.ofNat 0x3044),
         (Char.ofNat 0x3088),
         (Char.ofNat 0xFF01)])
    (.letIn (.bind "buf") (.rep (.int .u8 0) 4)
    (.letIn (.tuple
      [(.bind "encoded"),
       (.bind "consumed_count")])
      (.method (.call false "encode_from_str" [(.var "text"), (.refMut (.var "buf"))]) .unwrap [])
    (.seq (.assertEq (.var "consumed_count") (.int .usize 6))
    (.seq (.assertEq (.var "encoded") (u8s [141, 161, 147, 250]))
    .unit))))))

/-- The body of `encode_error_01`.  src/shiftjis_whatwg.rs -/
def unit_shiftjis_whatwg.encode_error_01 : Expr :=
  (.block
    (.letIn (.bind "text")
      (.str
        [(Char.ofNat 0x1F63A),
         (Char.ofNat 0x4ECA),
         (Char.ofNat 0x65E5),
         (Char.ofNat 0x306F),
         (Char.ofNat 0x3044),
         (Char.ofNat 0x3044),
         (Char.ofNat 0x3088),
         (Char.ofNat 0xFF01)])
    (.letIn (.bind "buf") (.rep (.int .u8 0) 64)
    (.seq
      (.assertEq
        (.call false "encode_from_str" [(.var "text"), (.refMut (.var "buf"))])
        (.ctor
          "Err"
          (.struct
            "EncodeError"
            ["character", "error_range", "output_bytes_written"]
            [(.char (Char.ofNat 0x1F63A)),
             (.tuple [(.int .usize 0), (.int .usize 4)]),
             (.int .usize 0)])))
    .unit))))

/-- The body of `encode_error_02`.  src/shiftjis_whatwg.rs -/
def unit_shiftjis_whatwg.encode_error_02 : Expr :=
  (.block
    (.letIn (.bind "text")
      (.str
        [(Char.ofNat 0x4ECA),
         (Char.ofNat 0x65E5),
         (Char.ofNat 0x1F63A),
         (Char.ofNat 0x306F),
         (Char.ofNat 0x3044),
         (Char.ofNat 0x3044),
         (Char.ofNat 0x3088),
         (Char.ofNat 0xFF01)])
    (.letIn (.bind "buf") (.rep (.int .u8 0) 64)
    (.seq
      (.assertEq
        (.call false "encode_from_str" [(.var "text"), (.refMut (.var "buf"))])
        (.ctor
          "Err"
          (.struct
            "EncodeError"
            ["character", "error_range", "output_bytes_written"]
            [(.char (Char.ofNat 0x1F63A)),
             (.tuple [(.int .usize 6), (.int .usize 10)]),
             (.int .usize 4)])))
    (.seq (.assertEq (.ref (.sliceTo (.var "buf") (.int .usize 4))) (u8s [141, 161, 147, 250]))
    .unit)))))

/-- the unit tests of src/shiftjis_whatwg.rs -/
def unit_shiftjis_whatwg : List Item :=
  [.useSuper,
   .fn "correct_decode"
     [("input", false), ("expected_output", false)]
     unit_shiftjis_whatwg.correct_decode,
   .fn "error_decode"
     [("input", false), ("error_range", false), ("bytes_written", false)]
     unit_shiftjis_whatwg.error_decode,
   .fn "correct_encode"
     [("input", false), ("expected_output", false)]
     unit_shiftjis_whatwg.correct_encode,
   .test,
   .fn "decode_01" [] unit_shiftjis_whatwg.decode_01,
   .test,
   .fn "decode_02" [] unit_shiftjis_whatwg.decode_02,
   .test,
   .fn "decode_03" [] unit_shiftjis_whatwg.decode_03,
   .test,
   .fn "decode_04" [] unit_shiftjis_whatwg.decode_04,
   .test,
   .fn "decode_05" [] unit_shiftjis_whatwg.decode_05,
   .test,
   .fn "decode_06" [] unit_shiftjis_whatwg.decode_06,
   .test,
   .fn "decode_07" [] unit_shiftjis_whatwg.decode_07,
   .test,
   .fn "decode_error_01" [] unit_shiftjis_whatwg.decode_error_01,
   .test,
   .fn "decode_error_02" [] unit_shiftjis_whatwg.decode_error_02,
   .test,
   .fn "decode_error_03" [] unit_shiftjis_whatwg.decode_error_03,
   .test,
   .fn "decode_error_04" [] unit_shiftjis_whatwg.decode_error_04,
   .test,
   .fn "decode_error_05" [] unit_shiftjis_whatwg.decode_error_05,
   .test,
   .fn "encode_01" [] unit_shiftjis_whatwg.encode_01,
   .test,
   .fn "encode_02" [] unit_shiftjis_whatwg.encode_02,
   .test,
   .fn "encode_03" [] unit_shiftjis_whatwg.encode_03,
   .test,
   .fn "encode_04" [] unit_shiftjis_whatwg.encode_04,
   .test,
   .fn "encode_05" [] unit_shiftjis_whatwg.encode_05,
   .test,
   .fn "encode_06" [] unit_shiftjis_whatwg.encode_06,
   .test,
   .fn "encode_error_01" [] unit_shiftjis_whatwg.encode_error_01,
   .test,
   .fn "encode_error_02" [] unit_shiftjis_whatwg.encode_error_02]

/-- The body of `correct_decode`.  src/big5_whatwg.rs -/
def unit_big5_whatwg.correct_decode : Expr :=
  (.block
    (.letIn (.bind "buf") (.rep (.int .u8 0) 256)
    (.seq
      (.assertEq
        (.call false "decode_to_str" [(.var "input"), (.refMut (.var "buf")), (.bool true)])
        (.ctor "Ok" (.tuple [(.var "expected_output"), (.method (.var "input") .len [])])))
    .unit)))

/-- The body of `error_decode`.  src/big5_whatwg.rs -/
def unit_big5_whatwg.error_decode : Expr :=
  (.block
    (.letIn (.bind "buf") (.rep (.int .u8 0) 256)
    (.seq
      (.assertEq
        (.call false "decode_to_str" [(.var "input"), (.refMut (.var "buf")), (.bool true)])
        (.ctor
          "Err"
          (.struct
            "DecodeError"
            ["cause", "error_range", "output_bytes_written"]
            [(.variant "InvalidData"), (.var "error_range"), (.var "bytes_written")])))
    .unit)))

/-- The body of `decode_01`.  src/big5_whatwg.rs -/
def unit_big5_whatwg.decode_01 : Expr :=
  (.block
    (.seq (.call false "correct_decode" [(.ref (u8s [97, 98])), (.str ['a', 'b'])])
    (.seq (.call false "correct_decode" [(.ref (u8s [135, 64])), (.str [(Char.ofNat 0x43F0)])])
    (.seq (.call false "correct_decode" [(.ref (u8s [254, 254])), (.str [(Char.ofNat 0x79D4)])])
    (.seq (.call false "correct_decode" [(.ref (u8s [254, 253])), (.str [(Char.ofNat 0x2910D)])])
    (.seq
      (.call
        false
        "correct_decode"
        [(.ref (u8s [136, 98])), (.str [(Char.ofNat 0xCA), (Char.ofNat 0x304)])])
    (.seq
      (.call
        false
        "correct_decode"
        [(.ref (u8s [136, 100])), (.str [(Char.ofNat 0xCA), (Char.ofNat 0x30C)])])
    (.seq (.call false "correct_decode" [(.ref (u8s [136, 102])), (.str [(Char.ofNat 0xCA)])])
    (.seq
      (.call
        false
        "correct_decode"
        [(.ref (u8s [136, 163])), (.str [(Char.ofNat 0xEA), (Char.ofNat 0x304)])])
    (.seq
      (.call
        false
        "correct_decode"
        [(.ref (u8s [136, 165])), (.str [(Char.ofNat 0xEA), (Char.ofNat 0x30C)])])
    (.seq (.call false "correct_decode" [(.ref (u8s [136, 167])), (.str [(Char.ofNat 0xEA)])])
    (.seq (.call false "correct_decode" [(.ref (u8s [153, 212])), (.str [(Char.ofNat 0x8991)])])
    (.seq (.call false "correct_decode" [(.ref (u8s [153, 213])), (.str [(Char.ofNat 0x27967)])])
    (.seq (.call false "correct_decode" [(.ref (u8s [153, 214])), (.str [(Char.ofNat 0x8A29)])])
    (.seq
      (.call
        false
        "correct_decode"
        [(.ref (u8s [97, 135, 64, 98])), (.str ['a', (Char.ofNat 0x43F0), 'b'])])
    (.seq
      (.call
        false
        "correct_decode"
        [(.ref (u8s [97, 254, 254, 98])), (.str ['a', (Char.ofNat 0x79D4), 'b'])])
    (.seq
      (.call
        false
        "correct_decode"
        [(.ref (u8s [97, 254, 253, 98])), (.str ['a', (Char.ofNat 0x2910D), 'b'])])
    (.seq
      (.call
        false
        "correct_decode"
        [(.ref (u8s [97, 136, 98, 98])), (.str ['a', (Char.ofNat 0xCA), (Char.ofNat 0x304), 'b'])])
    (.seq
      (.call
        false
        "correct_decode"
        [(.ref (u8s [97, 136, 100, 98])), (.str ['a', (Char.ofNat 0xCA), (Char.ofNat 0x30C), 'b'])])
    (.seq
      (.call
        false
        "correct_decode"
        [(.ref (u8s [97, 136, 102, 98])), (.str ['a', (Char.ofNat 0xCA), 'b'])])
    (.seq
      (.call
        false
        "correct_decode"
        [(.ref (u8s [97, 136, 163, 98])), (.str ['a', (Char.ofNat 0xEA), (Char.ofNat 0x304), 'b'])])
    (.seq
      (.call
        false
        "correct_decode"
        [(.ref (u8s [97, 136, 165, 98])), (.str ['a', (Char.ofNat 0xEA), (Char.ofNat 0x30C), 'b'])])
    (.seq
      (.call
        false
        "correct_decode"
        [(.ref (u8s [97, 136, 167, 98])), (.str ['a', (Char.ofNat 0xEA), 'b'])])
    (.seq
      (.call
        false
        "correct_decode"
        [(.ref (u8s [97, 153, 212, 98])), (.str ['a', (Char.ofNat 0x8991), 'b'])])
    (.seq
      (.call
        false
        "correct_decode"
        [(.ref (u8s [97, 153, 213, 98])), (.str ['a', (Char.ofNat 0x27967), 'b'])])
    (.seq
      (.call
        false
        "correct_decode"
        [(.ref (u8s [97, 153, 214, 98])), (.str ['a', (Char.ofNat 0x8A29), 'b'])])
    .unit))))))))))))))))))))))))))

/-- The body of `decode_02`.  src/big5_whatwg.rs -/
def unit_big5_whatwg.decode_02 : Expr :=
  (.block
    (.letIn (.bind "data")
      (ints [164, 181, 164, 233, 199, 86, 198, 234, 198, 234, 199, 111, 161, 73])
    (.letIn (.bind "buf") (.rep (.int .u8 0) 2)
    (.letIn (.tuple
      [(.bind "decoded"),
       (.bind "consumed_count")])
      (.method
        (.call false "decode_to_str" [(.ref (.var "data")), (.refMut (.var "buf")), (.bool true)])
        .unwrap
        [])
    (.seq (.assertEq (.var "consumed_count") (.int .usize 0))
    (.seq (.assertEq (.var "decoded") (.str []))
    .unit))))))

/-- The body of `decode_03`.  src/big5_whatwg.rs -/
def unit_big5_whatwg.decode_03 : Expr :=
  (.block
    (.letIn (.bind "data")
      (ints [164, 181, 164, 233, 199, 86, 198, 234, 198, 234, 199, 111, 161, 73])
    (.letIn (.bind "buf") (.rep (.int .u8 0) 3)
    (.letIn (.tuple
      [(.bind "decoded"),
       (.bind "consumed_count")])
      (.method
        (.call false "decode_to_str" [(.ref (.var "data")), (.refMut (.var "buf")), (.bool true)])
        .unwrap
        [])
    (.seq (.assertEq (.var "consumed_count") (.int .usize 2))
    (.seq (.assertEq (.var "decoded") (.str [(Char.ofNat 0x4ECA)]))
    .unit))))))

/-- The body of `decode_04`.  src/big5_whatwg.rs -/
def unit_big5_whatwg.decode_04 : Expr :=
  (.block
    (.letIn (.bind "data")
      (ints [164, 181, 164, 233, 199, 86, 198, 234, 198, 234, 199, 111, 161, 73])
    (.letIn (.bind "buf") (.rep (.int .u8 0) 5)
    (.letIn (.tuple
      [(.bind "decoded"),
       (.bind "consumed_count")])
      (.method
        (.call false "decode_to_str" [(.ref (.var "data")), (.refMut (.var "buf")), (.bool true)])
        .unwrap
        [])
    (.seq (.assertEq (.var "consumed_count") (.int .usize 2))
    (.seq (.assertEq (.var "decoded") (.str [(Char.ofNat 0x4ECA)]))
    .unit))))))

/-- The body of `decode_05`.  src/big5_whatwg.rs -/
def unit_big5_whatwg.decode_05 : Expr :=
  (.block
    (.letIn (.bind "data")
      (ints [164, 181, 128, 97, 199, 86, 198, 234, 198, 234, 199, 111, 161, 73])
    (.letIn (.bind "buf") (.rep (.int .u8 0) 3)
    (.letIn (.tuple
      [(.bind "decoded"),
       (.bind "consumed_count")])
      (.method
        (.call false "decode_to_str" [(.ref (.var "data")), (.refMut (.var "buf")), (.bool true)])
        .unwrap
        [])
    (.seq (.assertEq (.var "consumed_count") (.int .usize 2))
    (.seq (.assertEq (.var "decoded") (.str [(Char.ofNat 0x4ECA)]))
    .unit))))))

/-- The body of `decode_06`.  src/big5_whatwg.rs -/
def unit_big5_whatwg.decode_06 : Expr :=
  (.block
    (.letIn (.bind "data") (ints [164, 181, 164, 233, 97, 199, 86, 98])
    (.letIn (.bind "buf") (.rep (.int .u8 0) 11)
    (.letIn (.tuple
      [(.bind "encoded"),
       (.bind "consumed_count")])
      (.method
        (.call false "decode_to_str" [(.ref (.var "data")), (.refMut (.var "buf")), (.bool true)])
        .unwrap
        [])
    (.seq (.assertEq (.var "consumed_count") (.int .usize 8))
    (.seq
      (.assertEq
        (.var "encoded")
        (.str [(Char.ofNat 0x4ECA), (Char.ofNat 0x65E5), 'a', (Char.ofNat 0x306F), 'b']))
    .unit))))))

/-- The body of `decode_07`.  src/big5_whatwg.rs -/
def unit_big5_whatwg.decode_07 : Expr :=
  (.block
    (.letIn (.bind "data") (ints [164, 181, 164, 233, 199, 86, 198, 234, 198, 234, 199, 111, 161])
    (.letIn (.bind "buf") (.rep (.int .u8 0) 64)
    (.letIn (.tuple
      [(.bind "decoded"),
       (.bind "consumed_count")])
      (.method
        (.call false "decode_to_str" [(.ref (.var "data")), (.refMut (.var "buf")), (.bool false)])
        .unwrap
        [])
    (.seq (.assertEq (.var "consumed_count") (.int .usize 12))
    (.seq
      (.assertEq
        (.var "decoded")
        (.str
          [(Char.ofNat 0x4ECA),
           (Char.ofNat 0x65E5),
           (Char.ofNat 0x306F),
           (Char.ofNat 0x3044),
           (Char.ofNat 0x3044),
           (Char.ofNat 0x3088)]))
    .unit))))))

/-- The body of `decode_error_01`.  src/big5_whatwg.rs -/
def unit_big5_whatwg.decode_error_01 : Expr :=
  (.block
    (.seq
      (.call
        false
        "error_decode"
        [(.ref (u8s [128, 97])), (.tuple [(.int .usize 0), (.int .usize 1)]), (.int .usize 0)])
    (.seq
      (.call
        false
        "error_decode"
        [(.ref (u8s [255, 97])), (.tuple [(.int .usize 0), (.int .usize 1)]), (.int .usize 0)])
    (.seq
      (.call
        false
        "error_decode"
        [(.ref (u8s [254, 57])), (.tuple [(.int .usize 0), (.int .usize 1)]), (.int .usize 0)])
    (.seq
      (.call
        false
        "error_decode"
        [(.ref (u8s [135, 102])), (.tuple [(.int .usize 0), (.int .usize 1)]), (.int .usize 0)])
    (.seq
      (.call
        false
        "error_decode"
        [(.ref (u8s [129, 64])), (.tuple [(.int .usize 0), (.int .usize 1)]), (.int .usize 0)])
    (.seq
      (.call
        false
        "error_decode"
        [(.ref (u8s [129, 160])), (.tuple [(.int .usize 0), (.int .usize 2)]), (.int .usize 0)])
    (.seq
      (.call
        false
        "error_decode"
        [(.ref (u8s [129, 254])), (.tuple [(.int .usize 0), (.int .usize 2)]), (.int .usize 0)])
    .unit))))))))

/-- The body of `decode_error_02`.  src/big5_whatwg.rs -/
def unit_big5_whatwg.decode_error_02 : Expr :=
  (.block
    (.letIn (.bind "data")
      (ints [128, 97, 164, 233, 199, 86, 198, 234, 198, 234, 199, 111, 161, 73])
    (.letIn (.bind "buf") (.rep (.int .u8 0) 2)
    (.letIn (.bind "error")
      (.call false "decode_to_str" [(.ref (.var "data")), (.refMut (.var "buf")), (.bool true)])
    (.seq
      (.assertEq
        (.var "error")
        (.ctor
          "Err"
          (.struct
            "DecodeError"
            ["cause", "error_range", "output_bytes_written"]
            [(.variant "InvalidData"),
             (.tuple [(.int .usize 0), (.int .usize 1)]),
             (.int .usize 0)])))
    .unit)))))

/-- The body of `decode_error_03`.  src/big5_whatwg.rs -/
def unit_big5_whatwg.decode_error_03 : Expr :=
  (.block
    (.letIn (.bind "data")
      (ints [164, 181, 128, 97, 199, 86, 198, 234, 198, 234, 199, 111, 161, 73])
    (.letIn (.bind "buf") (.rep (.int .u8 0) 4)
    (.seq
      (.block
        (.letIn (.bind "error")
          (.call false "decode_to_str" [(.ref (.var "data")), (.refMut (.var "buf")), (.bool true)])
        (.seq
          (.assertEq
            (.var "error")
            (.ctor
              "Err"
              (.struct
                "DecodeError"
                ["cause", "error_range", "output_bytes_written"]
                [(.variant "InvalidData"),
                 (.tuple [(.int .usize 2), (.int .usize 3)]),
                 (.int .usize 3)])))
        .unit)))
    (.seq (.assertEq (.ref (.sliceTo (.var "buf") (.int .usize 3))) (u8s [228, 187, 138]))
    .unit)))))

/-- The body of `decode_error_04`.  src/big5_whatwg.rs -/
def unit_big5_whatwg.decode_error_04 : Expr :=
  (.block
    (.letIn (.bind "data")
      (ints [164, 181, 164, 233, 199, 86, 128, 97, 198, 234, 199, 111, 161, 73])
    (.letIn (.bind "buf") (.rep (.int .u8 0) 64)
    (.seq
      (.block
        (.letIn (.bind "error")
          (.call false "decode_to_str" [(.ref (.var "data")), (.refMut (.var "buf")), (.bool true)])
        (.seq
          (.assertEq
            (.var "error")
            (.ctor
              "Err"
              (.struct
                "DecodeError"
                ["cause", "error_range", "output_bytes_written"]
                [(.variant "InvalidData"),
                 (.tuple [(.int .usize 6), (.int .usize 7)]),
                 (.int .usize 9)])))
        .unit)))
    (.seq
      (.assertEq
        (.ref (.sliceTo (.var "buf") (.int .usize 9)))
        (u8s [228, 187, 138, 230, 151, 165, 227, 129, 175]))
    .unit)))))

/-- The body of `decode_error_05`.  src/big5_whatwg.rs -/
def unit_big5_whatwg.decode_error_05 : Expr :=
  (.block
    (.letIn (.bind "data") (ints [164, 181, 164, 233, 199, 86, 198, 234, 198, 234, 199, 111, 161])
    (.letIn (.bind "buf") (.rep (.int .u8 0) 64)
    (.seq
      (.block
        (.letIn (.bind "error")
          (.call false "decode_to_str" [(.ref (.var "data")), (.refMut (.var "buf")), (.bool true)])
        (.seq
          (.assertEq
            (.var "error")
            (.ctor
              "Err"
              (.struct
                "DecodeError"
                ["cause", "error_range", "output_bytes_written"]
                [(.variant "InvalidData"),
                 (.tuple [(.int .usize 12), (.int .usize 13)]),
                 (.int .usize 18)])))
        .unit)))
    (.seq
      (.assertEq
        (.ref (.sliceTo (.var "buf") (.int .usize 18)))
        (.method
          (.str
            [(Char.ofNat 0x4ECA),
             (Char.ofNat 0x65E5),
             (Char.ofNat 0x306F),
             (Char.ofNat 0x3044),
             (Char.ofNat 0x3044),
             (Char.ofNat 0x3088)])
          .as_bytes
          []))
    .unit)))))

/-- The body of `encode_01`.  src/big5_whatwg.rs -/
def unit_big5_whatwg.encode_01 : Expr :=
  (.block
    (.letIn (.bind "text")
      (.str
        [(Char.ofNat 0x4ECA),
         (Char.ofNat 0x65E5),
         (Char.ofNat 0x306F),
         (Char.ofNat 0x3044),
         (Char.ofNat 0x3044),
         (Char.ofNat 0x3088),
         (Char.ofNat 0xFF01)])
    (.letIn (.bind "buf") (.rep (.int .u8 0) 1)
    (.letIn (.tuple
      [(.bind "encoded"),
       (.bind "consumed_count")])
      (.method
        (.call false "encode_from_str" [(.var "text"), (.refMut (.var "buf")), (.bool true)])
        .unwrap
        [])
    (.seq (.assertEq (.var "consumed_count") (.int .usize 0))
    (.seq (.assertEq (.var "encoded") (.ref (.array [])))
    .unit))))))

/-- The body of `encode_02`.  src/big5_whatwg.rs -/
def unit_big5_whatwg.encode_02 : Expr :=
  (.block
    (.letIn (.bind "text")
      (.str
        [(Char.ofNat 0x4ECA),
         (Char.ofNat 0x65E5),
         (Char.ofNat 0x306F),
         (Char.ofNat 0x3044),
         (Char.ofNat 0x3044),
         (Char.ofNat 0x3088),
         (Char.ofNat 0xFF01)])
    (.letIn (.bind "buf") (.rep (.int .u8 0) 2)
    (.letIn (.tuple
      [(.bind "encoded"),
       (.bind "consumed_count")])
      (.method
        (.call false "encode_from_str" [(.var "text"), (.refMut (.var "buf")), (.bool true)])
        .unwrap
        [])
    (.seq (.assertEq (.var "consumed_count") (.int .usize 3))
    (.seq (.assertEq (.var "encoded") (.ref (ints [164, 181])))
    .unit))))))

/-- The body of `encode_03`.  src/big5_whatwg.rs -/
def unit_big5_whatwg.encode_03 : Expr :=
  (.block
    (.letIn (.bind "text")
      (.str
        [(Char.ofNat 0x4ECA),
         (Char.ofNat 0x65E5),
         (Char.ofNat 0x306F),
         (Char.ofNat 0x3044),
         (Char.ofNat 0x3044),
         (Char.ofNat 0x3088),
         (Char.ofNat 0xFF01)])
    (.letIn (.bind "buf") (.rep (.int .u8 0) 3)
    (.letIn (.tuple
      [(.bind "encoded"),
       (.bind "consumed_count")])
      (.method
        (.call false "encode_from_str" [(.var "text"), (.refMut (.var "buf")), (.bool true)])
        .unwrap
        [])
    (.seq (.assertEq (.var "consumed_count") (.int .usize 3))
    (.seq (.assertEq (.var "encoded") (.ref (ints [164, 181])))
    .unit))))))

/-- The body of `encode_04`.  src/big5_whatwg.rs -/
def unit_big5_whatwg.encode_04 : Expr :=
  (.block
    (.letIn (.bind "text")
      (.str
        [(Char.ofNat 0x4ECA),
         (Char.ofNat 0x65E5),
         'a',
         (Char.ofNat 0x306F),
         'b',
         (Char.ofNat 0x3044),
         (Char.ofNat 0x3044),
         (Char.ofNat 0x3088),
         (Char.ofNat 0xFF01)])
    (.letIn (.bind "buf") (.rep (.int .u8 0) 8)
    (.letIn (.tuple
      [(.bind "encoded"),
       (.bind "consumed_count")])
      (.method
        (.call false "encode_from_str" [(.var "text"), (.refMut (.var "buf")), (.bool true)])
        .unwrap
        [])
    (.seq (.assertEq (.var "consumed_count") (.int .usize 11))
    (.seq (.assertEq (.var "encoded") (.ref (ints [164, 181, 164, 233, 97, 199, 86, 98])))
    .unit))))))

/-- The body of `encode_05`.  src/big5_whatwg.rs -/
def unit_big5_whatwg.encode_05 : Expr :=
  (.block
    (.letIn (.bind "text")
      (.str
        [(Char.ofNat 0x4ECA),
         (Char.ofNat 0x65E5),
         (Char.ofNat 0x1F63A),
         (Char.ofNat 0x306F),
         (Char.ofNat 0x3044),
         (Char.ofNat 0x3044),
         (Char.ofNat 0x3088),
         (Char.ofNat 0xFF01)])
    (.letIn (.bind "buf") (.rep (.int .u8 0) 4)
    (.letIn (.tuple
      [(.bind "encoded"),
       (.bind "consumed_count")])
      (.method
        (.call false "encode_from_str" [(.var "text"), (.refMut (.var "buf")), (.bool true)])
        .unwrap
        [])
    (.seq (.assertEq (.var "consumed_count") (.int .usize 6))
    (.seq (.assertEq (.var "encoded") (.ref (ints [164, 181, 164, 233])))
    .unit))))))

/-- The body of `encode_06`.  src/big5_whatwg.rs -/
def unit_big5_whatwg.encode_06 : Expr :=
  (.block
    (.letIn (.bind "text") (.str [(Char.ofNat 0xCA), (Char.ofNat 0x304)])
    (.letIn (.bind "buf") (.rep (.int .u8 0) 64)
    (.letIn (.tuple
      [(.bind "encoded"),
       (.bind "consumed_count")])
      (.method
        (.call false "encode_from_str" [(.var "text"), (.refMut (.var "buf")), (.bool true)])
        .unwrap
        [])
    (.seq (.assertEq (.var "consumed_count") (.int .usize 4))
    (.seq (.assertEq (.var "encoded") (.ref (ints [136, 98])))
    .unit))))))

/-- The body of `encode_07`.  src/big5_whatwg.rs -/
def unit_big5_whatwg.encode_07 : Expr :=
  (.block
    (.letIn (.bind "text") (.str [(Char.ofNat 0xCA), (Char.ofNat 0x304)])
    (.letIn (.bind "buf") (.rep (.int .u8 0) 64)
    (.letIn (.tuple
      [(.bind "encoded"),
       (.bind "consumed_count")])
      (.method
        (.call false "encode_from_str" [(.var "text"), (.refMut (.var "buf")), (.bool false)])
        .unwrap
        [])
    (.seq (.assertEq (.var "consumed_count") (.int .usize 4))
    (.seq (.assertEq (.var "encoded") (.ref (ints [136, 98])))
    .unit))))))

/-- The body of `encode_08`.  src/big5_whatwg.rs -/
def unit_big5_whatwg.encode_08 : Expr :=
  (.block
    (.letIn (.bind "text") (.str [(Char.ofNat 0xCA)])
    (.letIn (.bind "buf") (.rep (.int .u8 0) 64)
    (.letIn (.tuple
      [(.bind "encoded"),
       (.bind "consumed_count")])
      (.method
        (.call false "encode_from_str" [(.var "text"), (.refMut (.var "buf")), (.bool true)])
        .unwrap
        [])
    (.seq (.assertEq (.var "consumed_count") (.int .usize 2))
    (.seq (.assertEq (.var "encoded") (.ref (ints [136, 102])))
    .unit))))))

/-- The body of `encode_09`.  src/big5_whatwg.rs -/
def unit_big5_whatwg.encode_09 : Expr :=
  (.block
    (.letIn (.bind "text") (.str [(Char.ofNat 0xCA)])
    (.letIn (.bind "buf") (.rep (.int .u8 0) 64)
    (.letIn (.tuple
      [(.bind "encoded"),
       (.bind "consumed_count")])
      (.method
        (.call false "encode_from_str" [(.var "text"), (.refMut (.var "buf")), (.bool false)])
        .unwrap
        [])
    (.seq (.assertEq (.var "consumed_count") (.int .usize 0))
    (.seq (.assertEq (.var "encoded") (.ref (.array [])))
    .unit))))))

/-- The body of `encode_10`.  src/big5_whatwg.rs -/
def unit_big5_whatwg.encode_10 : Expr :=
  (.block
    (.letIn (.bind "text") (.str [(Char.ofNat 0xCA), (Char.ofNat 0x3088)])
    (.letIn (.bind "buf") (.rep (.int .u8 0) 64)
    (.letIn (.tuple
      [(.bind "encoded"),
       (.bind "consumed_count")])
      (.method
        (.call false "encode_from_str" [(.var "text"), (.refMut (.var "buf")), (.bool true)])
        .unwrap
        [])
    (.seq (.assertEq (.var "consumed_count") (.int .usize 5))
    (.seq (.assertEq (.var "encoded") (.ref (ints [136, 102, 199, 111])))
    .unit))))))

/-- The body of `encode_11`.  src/big5_whatwg.rs -/
def unit_big5_whatwg.encode_11 : Expr :=
  (.block
    (.letIn (.bind "text") (.str [(Char.ofNat 0xCA), (Char.ofNat 0x3088)])
    (.letIn (.bind "buf") (.rep (.int .u8 0) 64)
    (.letIn (.tuple
      [(.bind "encoded"),
       (.bind "consumed_count")])
      (.method
        (.call false "encode_from_str" [(.var "text"), (.refMut (.var "buf")), (.bool false)])
        .unwrap
        [])
    (.seq (.assertEq (.var "consumed_count") (.int .usize 5))
    (.seq (.assertEq (.var "encoded") (.ref (ints [136, 102, 199, 111])))
    .unit))))))

/-- The body of `encode_error_01`.  src/big5_whatwg.rs -/
def unit_big5_whatwg.encode_error_01 : Expr :=
  (.block
    (.letIn (.bind "text")
      (.str
        [(Char.ofNat 0x1F63A),
         (Char.ofNat 0x4ECA),
         (Char.ofNat 0x65E5),
         (Char.ofNat 0x306F),
         (Char.ofNat 0x3044),
         (Char.ofNat 0x3044),
         (Char.ofNat 0x3088),
         (Char.ofNat 0xFF01)])
    (.letIn (.bind "buf") (.rep (.int .u8 0) 64)
    (.seq
      (.assertEq
        (.call false "encode_from_str" [(.var "text"), (.refMut (.var "buf")), (.bool true)])
        (.ctor
          "Err"
          (.struct
            "EncodeError"
            ["character", "error_range", "output_bytes_written"]
            [(.char (Char.ofNat 0x1F63A)),
             (.tuple [(.int .usize 0), (.int .usize 4)]),
             (.int .usize 0)])))
    .unit))))

/-- The body of `encode_error_02`.  src/big5_whatwg.rs -/
def unit_big5_whatwg.encode_error_02 : Expr :=
  (.block
    (.letIn (.bind "text")
      (.str
        [(Char.ofNat 0x4ECA),
         (Char.ofNat 0x65E5),
         (Char.ofNat 0x1F63A),
         (Char.ofNat 0x306F),
         (Char.ofNat 0x3044),
         (Char.ofNat 0x3044),
         (Char.ofNat 0x3088),
         (Char.ofNat 0xFF01)])
    (.letIn (.bind "buf") (.rep (.int .u8 0) 64)
    (.seq
      (.assertEq
        (.call false "encode_from_str" [(.var "text"), (.refMut (.var "buf")), (.bool true)])
        (.ctor
          "Err"
          (.struct
            "EncodeError"
            ["character", "error_range", "output_bytes_written"]
            [(.char (Char.ofNat 0x1F63A)),
             (.tuple [(.int .usize 6), (.int .usize 10)]),
             (.int .usize 4)])))
    (.seq
      (.assertEq (.ref (.sliceTo (.var "buf") (.int .usize 4))) (.ref (ints [164, 181, 164, 233])))
    .unit)))))

/-- the unit tests of src/big5_whatwg.rs -/
def unit_big5_whatwg : List Item :=
  [.useSuper,
   .fn "correct_decode"
     [("input", false), ("expected_output", false)]
     unit_big5_whatwg.correct_decode,
   .fn "error_decode"
     [("input", false), ("error_range", false), ("bytes_written", false)]
     unit_big5_whatwg.error_decode,
   .test,
   .fn "decode_01" [] unit_big5_whatwg.decode_01,
   .test,
   .fn "decode_02" [] unit_big5_whatwg.decode_02,
   .test,
   .fn "decode_03" [] unit_big5_whatwg.decode_03,
   .test,
   .fn "decode_04" [] unit_big5_whatwg.decode_04,
   .test,
   .fn "decode_05" [] unit_big5_whatwg.decode_05,
   .test,
   .fn "decode_06" [] unit_big5_whatwg.decode_06,
   .test,
   .fn "decode_07" [] unit_big5_whatwg.decode_07,
   .test,
   .fn "decode_error_01" [] unit_big5_whatwg.decode_error_01,
   .test,
   .fn "decode_error_02" [] unit_big5_whatwg.decode_error_02,
   .test,
   .fn "decode_error_03" [] unit_big5_whatwg.decode_error_03,
   .test,
   .fn "decode_error_04" [] unit_big5_whatwg.decode_error_04,
   .test,
   .fn "decode_error_05" [] unit_big5_whatwg.decode_error_05,
   .test,
   .fn "encode_01" [] unit_big5_whatwg.encode_01,
   .test,
   .fn "encode_02" [] unit_big5_whatwg.encode_02,
   .test,
   .fn "encode_03" [] unit_big5_whatwg.encode_03,
   .test,
   .fn "encode_04" [] unit_big5_whatwg.encode_04,
   .test,
   .fn "encode_05" [] unit_big5_whatwg.encode_05,
   .test,
   .fn "encode_06" [] unit_big5_whatwg.encode_06,
   .test,
   .fn "encode_07" [] unit_big5_whatwg.encode_07,
   .test,
   .fn "encode_08" [] unit_big5_whatwg.encode_08,
   .test,
   .fn "encode_09" [] unit_big5_whatwg.encode_09,
   .test,
   .fn "encode_10" [] unit_big5_whatwg.encode_10,
   .test,
   .fn "encode_11" [] unit_big5_whatwg.encode_11,
   .test,
   .fn "encode_error_01" [] unit_big5_whatwg.encode_error_01,
   .test,
   .fn "encode_error_02" [] unit_big5_whatwg.encode_error_02]

/-- The body of `encode_01`.  src/single_byte.rs -/
def unit_single_byte.encode_01 : Expr :=
  (.block
    (.letIn (.bind "text")
      (.str ['H', 'e', 'l', 'l', 'o', (Char.ofNat 0x20), 'w', 'o', 'r', 'l', 'd', '!'])
    (.letIn (.bind "buf") (.rep (.int .u8 0) 0)
    (.letIn (.tuple
      [(.bind "encoded"),
       (.bind "consumed_count")])
      (.method (.call false "encode_from_str" [(.var "text"), (.refMut (.var "buf"))]) .unwrap [])
    (.seq (.assertEq (.var "consumed_count") (.int .usize 0))
    (.seq (.assertEq (.var "encoded") (.ref (.array [])))
    .unit))))))

/-- The body of `encode_02`.  src/single_byte.rs -/
def unit_single_byte.encode_02 : Expr :=
  (.block
    (.letIn (.bind "text")
      (.str ['H', 'e', 'l', 'l', 'o', (Char.ofNat 0x20), 'w', 'o', 'r', 'l', 'd', '!'])
    (.letIn (.bind "buf") (.rep (.int .u8 0) 1)
    (.letIn (.tuple
      [(.bind "encoded"),
       (.bind "consumed_count")])
      (.method (.call false "encode_from_str" [(.var "text"), (.refMut (.var "buf"))]) .unwrap [])
    (.seq (.assertEq (.var "consumed_count") (.int .usize 1))
    (.seq (.assertEq (.var "encoded") (.method (.str ['H']) .as_bytes []))
    .unit))))))

/-- The body of `encode_03`.  src/single_byte.rs -/
def unit_single_byte.encode_03 : Expr :=
  (.block
    (.letIn (.bind "text")
      (.str ['H', 'e', 'l', 'l', 'o', (Char.ofNat 0x20), 'w', 'o', 'r', 'l', 'd', '!'])
    (.letIn (.bind "buf") (.rep (.int .u8 0) 2)
    (.letIn (.tuple
      [(.bind "encoded"),
       (.bind "consumed_count")])
      (.method (.call false "encode_from_str" [(.var "text"), (.refMut (.var "buf"))]) .unwrap [])
    (.seq (.assertEq (.var "consumed_count") (.int .usize 2))
    (.seq (.assertEq (.var "encoded") (.method (.str ['H', 'e']) .as_bytes []))
    .unit))))))

/-- The body of `encode_04`.  src/single_byte.rs -/
def unit_single_byte.encode_04 : Expr :=
  (.block
    (.letIn (.bind "text")
      (.str ['H', 'e', 'l', 'l', 'o', (Char.ofNat 0x20), 'w', 'o', 'r', 'l', 'd', '!'])
    (.letIn (.bind "buf") (.rep (.int .u8 0) 64)
    (.letIn (.tuple
      [(.bind "encoded"),
       (.bind "consumed_count")])
      (.method (.call false "encode_from_str" [(.var "text"), (.refMut (.var "buf"))]) .unwrap [])
    (.seq (.assertEq (.var "consumed_count") (.int .usize 12))
    (.seq
      (.assertEq
        (.var "encoded")
        (.method
          (.str ['H', 'e', 'l', 'l', 'o', (Char.ofNat 0x20), 'w', 'o', 'r', 'l', 'd', '!'])
          .as_bytes
          []))
    .unit))))))

/-- The body of `encode_05`.  src/single_byte.rs -/
def unit_single_byte.encode_05 : Expr :=
  (.block
    (.letIn (.bind "text")
      (.str
        ['H',
         'e',
         'l',
         'l',
         'o',
         (Char.ofNat 0x20),
         'w',
         'o',
         'r',
         'l',
         'd',
         '!',
         (Char.ofNat 0x3053)])
    (.letIn (.bind "buf") (.rep (.int .u8 0) 12)
    (.letIn (.tuple
      [(.bind "encoded"),
       (.bind "consumed_count")])
      (.method (.call false "encode_from_str" [(.var "text"), (.refMut (.var "buf"))]) .unwrap [])
    (.seq (.assertEq (.var "consumed_count") (.int .usize 12))
    (.seq
      (.assertEq
        (.var "encoded")
        (.method
          (.str ['H', 'e', 'l', 'l', 'o', (Char.ofNat 0x20), 'w', 'o', 'r', 'l', 'd', '!'])
          .as_bytes
          []))
    .unit))))))

/-- The body of `decode_01`.  src/single_byte.rs -/
def unit_single_byte.decode_01 : Expr :=
  (.block
    (.letIn (.bind "data") (ints [72, 101, 108, 108, 111, 32, 119, 111, 114, 108, 100, 33])
    (.letIn (.bind "buf") (.rep (.int .u8 0) 0)
    (.letIn (.tuple
      [(.bind "decoded"),
       (.bind "consumed_count")])
      (.method
        (.call false "decode_to_str" [(.ref (.var "data")), (.refMut (.var "buf"))])
        .unwrap
        [])
    (.seq (.assertEq (.var "consumed_count") (.int .usize 0))
    (.seq (.assertEq (.var "decoded") (.str []))
    .unit))))))

/-- The body of `decode_02`.  src/single_byte.rs -/
def unit_single_byte.decode_02 : Expr :=
  (.block
    (.letIn (.bind "data") (ints [72, 101, 108, 108, 111, 32, 119, 111, 114, 108, 100, 33])
    (.letIn (.bind "buf") (.rep (.int .u8 0) 1)
    (.letIn (.tuple
      [(.bind "decoded"),
       (.bind "consumed_count")])
      (.method
        (.call false "decode_to_str" [(.ref (.var "data")), (.refMut (.var "buf"))])
        .unwrap
        [])
    (.seq (.assertEq (.var "consumed_count") (.int .usize 1))
    (.seq (.assertEq (.var "decoded") (.str ['H']))
    .unit))))))

/-- The body of `decode_03`.  src/single_byte.rs -/
def unit_single_byte.decode_03 : Expr :=
  (.block
    (.letIn (.bind "data") (ints [72, 101, 108, 108, 111, 32, 119, 111, 114, 108, 100, 33])
    (.letIn (.bind "buf") (.rep (.int .u8 0) 2)
    (.letIn (.tuple
      [(.bind "decoded"),
       (.bind "consumed_count")])
      (.method
        (.call false "decode_to_str" [(.ref (.var "data")), (.refMut (.var "buf"))])
        .unwrap
        [])
    (.seq (.assertEq (.var "consumed_count") (.int .usize 2))
    (.seq (.assertEq (.var "decoded") (.str ['H', 'e']))
    .unit))))))

/-- The body of `decode_04`.  src/single_byte.rs -/
def unit_single_byte.decode_04 : Expr :=
  (.block
    (.letIn (.bind "data") (ints [72, 101, 108, 108, 111, 32, 119, 111, 114, 108, 100, 33])
    (.letIn (.bind "buf") (.rep (.int .u8 0) 64)
    (.letIn (.tuple
      [(.bind "decoded"),
       (.bind "consumed_count")])
      (.method
        (.call false "decode_to_str" [(.ref (.var "data")), (.refMut (.var "buf"))])
        .unwrap
        [])
    (.seq (.assertEq (.var "consumed_count") (.int .usize 12))
    (.seq
      (.assertEq
        (.var "decoded")
        (.str ['H', 'e', 'l', 'l', 'o', (Char.ofNat 0x20), 'w', 'o', 'r', 'l', 'd', '!']))
    .unit))))))

/-- The body of `decode_05`.  src/single_byte.rs -/
def unit_single_byte.decode_05 : Expr :=
  (.block
    (.letIn (.bind "data")
      (ints
        [193,
         194,
         195,
         196,
         197,
         198,
         199,
         200,
         201,
         202,
         203,
         204,
         205,
         206,
         207,
         208,
         209,
         211,
         212,
         213,
         214,
         215,
         216,
         217])
    (.letIn (.bind "buf") (.rep (.int .u8 0) 128)
    (.letIn (.tuple
      [(.bind "decoded"),
       (.bind "consumed_count")])
      (.method
        (.call false "decode_to_str" [(.ref (.var "data")), (.refMut (.var "buf"))])
        .unwrap
        [])
    (.seq (.assertEq (.var "consumed_count") (.int .usize 24))
    (.seq
      (.assertEq
        (.var "decoded")
        (.str
          [(Char.ofNat 0x391),
           (Char.ofNat 0x392),
           (Char.ofNat 0x393),
           (Char.ofNat 0x394),
           (Char.ofNat 0x395),
           (Char.ofNat 0x396),
           (Char.ofNat 0x397),
           (Char.ofNat 0x398),
           (Char.ofNat 0x399),
           (Char.ofNat 0x39A),
           (Char.ofNat 0x39B),
           (Char.ofNat 0x39C),
           (Char.ofNat 0x39D),
           (Char.ofNat 0x39E),
           (Char.ofNat 0x39F),
           (Char.ofNat 0x3A0),
           (Char.ofNat 0x3A1),
           (Char.ofNat 0x3A3),
           (Char.ofNat 0x3A4),
           (Char.ofNat 0x3A5),
           (Char.ofNat 0x3A6),
           (Char.ofNat 0x3A7),
           (Char.ofNat 0x3A8),
           (Char.ofNat 0x3A9)]))
    .unit))))))

/-- The body of `encode_error_01`.  src/single_byte.rs -/
def unit_single_byte.encode_error_01 : Expr :=
  (.block
    (.letIn (.bind "text")
      (.str
        [(Char.ofNat 0x3053), 'e', 'l', 'l', 'o', (Char.ofNat 0x20), 'w', 'o', 'r', 'l', 'd', '!'])
    (.letIn (.bind "buf") (.rep (.int .u8 0) 64)
    (.seq
      (.assertEq
        (.call false "encode_from_str" [(.var "text"), (.refMut (.var "buf"))])
        (.ctor
          "Err"
          (.struct
            "EncodeError"
            ["character", "error_range", "output_bytes_written"]
            [(.char (Char.ofNat 0x3053)),
             (.tuple [(.int .usize 0), (.int .usize 3)]),
             (.int .usize 0)])))
    .unit))))

/-- The body of `encode_error_02`.  src/single_byte.rs -/
def unit_single_byte.encode_error_02 : Expr :=
  (.block
    (.letIn (.bind "text")
      (.str
        [(Char.ofNat 0xC0), 'e', 'l', 'l', 'o', (Char.ofNat 0x20), 'w', 'o', 'r', 'l', 'd', '!'])
    (.letIn (.bind "buf") (.rep (.int .u8 0) 64)
    (.seq
      (.assertEq
        (.call false "encode_from_str" [(.var "text"), (.refMut (.var "buf"))])
        (.ctor
          "Err"
          (.struct
            "EncodeError"
            ["character", "error_range", "output_bytes_written"]
            [(.char (Char.ofNat 0xC0)),
             (.tuple [(.int .usize 0), (.int .usize 2)]),
             (.int .usize 0)])))
    .unit))))

/-- The body of `encode_error_03`.  src/single_byte.rs -/
def unit_single_byte.encode_error_03 : Expr :=
  (.block
    (.letIn (.bind "text")
      (.str
        ['H', (Char.ofNat 0x3053), 'l', 'l', 'o', (Char.ofNat 0x20), 'w', 'o', 'r', 'l', 'd', '!'])
    (.letIn (.bind "buf") (.rep (.int .u8 0) 64)
    (.seq
      (.assertEq
        (.call false "encode_from_str" [(.var "text"), (.refMut (.var "buf"))])
        (.ctor
          "Err"
          (.struct
            "EncodeError"
            ["character", "error_range", "output_bytes_written"]
            [(.char (Char.ofNat 0x3053)),
             (.tuple [(.int .usize 1), (.int .usize 4)]),
             (.int .usize 1)])))
    .unit))))

/-- The body of `encode_error_04`.  src/single_byte.rs -/
def unit_single_byte.encode_error_04 : Expr :=
  (.block
    (.letIn (.bind "text")
      (.str
        ['H', (Char.ofNat 0xC0), 'l', 'l', 'o', (Char.ofNat 0x20), 'w', 'o', 'r', 'l', 'd', '!'])
    (.letIn (.bind "buf") (.rep (.int .u8 0) 64)
    (.seq
      (.assertEq
        (.call false "encode_from_str" [(.var "text"), (.refMut (.var "buf"))])
        (.ctor
          "Err"
          (.struct
            "EncodeError"
            ["character", "error_range", "output_bytes_written"]
            [(.char (Char.ofNat 0xC0)),
             (.tuple [(.int .usize 1), (.int .usize 3)]),
             (.int .usize 1)])))
    .unit))))

/-- The body of `encode_error_05`.  src/single_byte.rs -/
def unit_single_byte.encode_error_05 : Expr :=
  (.block
    (.letIn (.bind "text")
      (.str
        ['H', 'e', (Char.ofNat 0x3053), 'l', 'o', (Char.ofNat 0x20), 'w', 'o', 'r', 'l', 'd', '!'])
    (.letIn (.bind "buf") (.rep (.int .u8 0) 3)
    (.seq
      (.assertEq
        (.call false "encode_from_str" [(.var "text"), (.refMut (.var "buf"))])
        (.ctor
          "Err"
          (.struct
            "EncodeError"
            ["character", "error_range", "output_bytes_written"]
            [(.char (Char.ofNat 0x3053)),
             (.tuple [(.int .usize 2), (.int .usize 5)]),
             (.int .usize 2)])))
    .unit))))

/-- The body of `encode_error_06`.  src/single_byte.rs -/
def unit_single_byte.encode_error_06 : Expr :=
  (.block
    (.letIn (.bind "text")
      (.str
        ['H', 'e', (Char.ofNat 0xC0), 'l', 'o', (Char.ofNat 0x20), 'w', 'o', 'r', 'l', 'd', '!'])
    (.letIn (.bind "buf") (.rep (.int .u8 0) 3)
    (.seq
      (.assertEq
        (.call false "encode_from_str" [(.var "text"), (.refMut (.var "buf"))])
        (.ctor
          "Err"
          (.struct
            "EncodeError"
            ["character", "error_range", "output_bytes_written"]
            [(.char (Char.ofNat 0xC0)),
             (.tuple [(.int .usize 2), (.int .usize 4)]),
             (.int .usize 2)])))
    .unit))))

/-- The body of `decode_error_01`.  src/single_byte.rs -/
def unit_single_byte.decode_error_01 : Expr :=
  (.block
    (.letIn (.bind "data") (ints [72, 174, 108, 108, 111, 32, 119, 111, 114, 108, 100, 33])
    (.letIn (.bind "buf") (.rep (.int .u8 0) 64)
    (.letIn (.bind "error")
      (.call false "decode_to_str" [(.ref (.var "data")), (.refMut (.var "buf"))])
    (.seq
      (.assertEq
        (.var "error")
        (.ctor
          "Err"
          (.struct
            "DecodeError"
            ["cause", "error_range", "output_bytes_written"]
            [(.variant "InvalidData"),
             (.tuple [(.int .usize 1), (.int .usize 2)]),
             (.int .usize 1)])))
    .unit)))))

/-- The body of `decode_error_02`.  src/single_byte.rs -/
def unit_single_byte.decode_error_02 : Expr :=
  (.block
    (.letIn (.bind "data") (ints [72, 210, 108, 108, 111, 32, 119, 111, 114, 108, 100, 33])
    (.letIn (.bind "buf") (.rep (.int .u8 0) 64)
    (.letIn (.bind "error")
      (.call false "decode_to_str" [(.ref (.var "data")), (.refMut (.var "buf"))])
    (.seq
      (.assertEq
        (.var "error")
        (.ctor
          "Err"
          (.struct
            "DecodeError"
            ["cause", "error_range", "output_bytes_written"]
            [(.variant "InvalidData"),
             (.tuple [(.int .usize 1), (.int .usize 2)]),
             (.int .usize 1)])))
    .unit)))))

/-- The body of `decode_error_03`.  src/single_byte.rs -/
def unit_single_byte.decode_error_03 : Expr :=
  (.block
    (.letIn (.bind "data") (ints [72, 255, 108, 108, 111, 32, 119, 111, 114, 108, 100, 33])
    (.letIn (.bind "buf") (.rep (.int .u8 0) 64)
    (.letIn (.bind "error")
      (.call false "decode_to_str" [(.ref (.var "data")), (.refMut (.var "buf"))])
    (.seq
      (.assertEq
        (.var "error")
        (.ctor
          "Err"
          (.struct
            "DecodeError"
            ["cause", "error_range", "output_bytes_written"]
            [(.variant "InvalidData"),
             (.tuple [(.int .usize 1), (.int .usize 2)]),
             (.int .usize 1)])))
    .unit)))))

/-- The body of `ascii_encode_error_01`.  src/single_byte.rs -/
def unit_single_byte.ascii_encode_error_01 : Expr :=
  (.block
    (.letIn (.bind "text")
      (.str
        [(Char.ofNat 0x80), 'e', 'l', 'l', 'o', (Char.ofNat 0x20), 'w', 'o', 'r', 'l', 'd', '!'])
    (.letIn (.bind "buf") (.rep (.int .u8 0) 64)
    (.seq
      (.assertEq
        (.callIn "ascii" "encode_from_str" [(.var "text"), (.refMut (.var "buf"))])
        (.ctor
          "Err"
          (.struct
            "EncodeError"
            ["character", "error_range", "output_bytes_written"]
            [(.char (Char.ofNat 0x80)),
             (.tuple [(.int .usize 0), (.int .usize 2)]),
             (.int .usize 0)])))
    .unit))))

/-- The body of `ascii_encode_error_02`.  src/single_byte.rs -/
def unit_single_byte.ascii_encode_error_02 : Expr :=
  (.block
    (.letIn (.bind "text")
      (.str
        [(Char.ofNat 0xFF), 'e', 'l', 'l', 'o', (Char.ofNat 0x20), 'w', 'o', 'r', 'l', 'd', '!'])
    (.letIn (.bind "buf") (.rep (.int .u8 0) 64)
    (.seq
      (.assertEq
        (.callIn "ascii" "encode_from_str" [(.var "text"), (.refMut (.var "buf"))])
        (.ctor
          "Err"
          (.struct
            "EncodeError"
            ["character", "error_range", "output_bytes_written"]
            [(.char (Char.ofNat 0xFF)),
             (.tuple [(.int .usize 0), (.int .usize 2)]),
             (.int .usize 0)])))
    .unit))))

/-- The body of `ascii_decode_error_01`.  src/single_byte.rs -/
def unit_single_byte.ascii_decode_error_01 : Expr :=
  (.block
    (.letIn (.bind "data") (ints [72, 128, 108, 108, 111, 32, 119, 111, 114, 108, 100, 33])
    (.letIn (.bind "buf") (.rep (.int .u8 0) 64)
    (.letIn (.bind "error")
      (.callIn "ascii" "decode_to_str" [(.ref (.var "data")), (.refMut (.var "buf"))])
    (.seq
      (.assertEq
        (.var "error")
        (.ctor
          "Err"
          (.struct
            "DecodeError"
            ["cause", "error_range", "output_bytes_written"]
            [(.variant "InvalidData"),
             (.tuple [(.int .usize 1), (.int .usize 2)]),
             (.int .usize 1)])))
    .unit)))))

/-- The body of `ascii_decode_error_02`.  src/single_byte.rs -/
def unit_single_byte.ascii_decode_error_02 : Expr :=
  (.block
    (.letIn (.bind "data") (ints [72, 255, 108, 108, 111, 32, 119, 111, 114, 108, 100, 33])
    (.letIn (.bind "buf") (.rep (.int .u8 0) 64)
    (.letIn (.bind "error")
      (.callIn "ascii" "decode_to_str" [(.ref (.var "data")), (.refMut (.var "buf"))])
    (.seq
      (.assertEq
        (.var "error")
        (.ctor
          "Err"
          (.struct
            "DecodeError"
            ["cause", "error_range", "output_bytes_written"]
            [(.variant "InvalidData"),
             (.tuple [(.int .usize 1), (.int .usize 2)]),
             (.int .usize 1)])))
    .unit)))))

/-- A loop body in `encode_latin1_01`.  src/single_byte.rs -/
def unit_single_byte.encode_latin1_01.loop1 : Expr :=
  (.block
    (.letIn (.tuple
      [(.bind "encoded"),
       (.bind "consumed_count")])
      (.method
        (.callIn
          "iso_8859_1"
          "encode_from_str"
          [(.method (.asChar (.var "i")) .encode_utf8 [(.refMut (.rep (.int .u8 0) 4))]),
           (.refMut (.var "buf"))])
        .unwrap
        [])
    (.seq (.assertEq (.var "consumed_count") (.method (.asChar (.var "i")) .len_utf8 []))
    (.seq (.assertEq (.var "encoded") (.ref (.array [(.var "i")])))
    .unit))))

/-- The body of `encode_latin1_01`.  src/single_byte.rs -/
def unit_single_byte.encode_latin1_01 : Expr :=
  (.block
    (.letIn (.bind "buf") (.rep (.int .u8 0) 64)
    (.forIn
      (.bind "i")
      (.rangeIncl (.int .usize 0) (.int .u8 255))
      unit_single_byte.encode_latin1_01.loop1)))

/-- A loop body in `decode_latin1_01`.  src/single_byte.rs -/
def unit_single_byte.decode_latin1_01.loop1 : Expr :=
  (.block
    (.letIn (.tuple
      [(.bind "encoded"),
       (.bind "consumed_count")])
      (.method
        (.callIn
          "iso_8859_1"
          "decode_to_str"
          [(.ref (.array [(.var "i")])), (.refMut (.var "buf"))])
        .unwrap
        [])
    (.seq (.assertEq (.var "consumed_count") (.int .usize 1))
    (.seq
      (.assertEq
        (.var "encoded")
        (.method (.asChar (.var "i")) .encode_utf8 [(.refMut (.rep (.int .u8 0) 4))]))
    .unit))))

/-- The body of `decode_latin1_01`.  src/single_byte.rs -/
def unit_single_byte.decode_latin1_01 : Expr :=
  (.block
    (.letIn (.bind "buf") (.rep (.int .u8 0) 64)
    (.forIn
      (.bind "i")
      (.rangeIncl (.int .usize 0) (.int .u8 255))
      unit_single_byte.decode_latin1_01.loop1)))

/-- the unit tests of src/single_byte.rs -/
def unit_single_byte : List Item :=
  [(.useGlobs "super" [["iso_8859_7"], []]),
   .test,
   .fn "encode_01" [] unit_single_byte.encode_01,
   .test,
   .fn "encode_02" [] unit_single_byte.encode_02,
   .test,
   .fn "encode_03" [] unit_single_byte.encode_03,
   .test,
   .fn "encode_04" [] unit_single_byte.encode_04,
   .test,
   .fn "encode_05" [] unit_single_byte.encode_05,
   .test,
   .fn "decode_01" [] unit_single_byte.decode_01,
   .test,
   .fn "decode_02" [] unit_single_byte.decode_02,
   .test,
   .fn "decode_03" [] unit_single_byte.decode_03,
   .test,
   .fn "decode_04" [] unit_single_byte.decode_04,
   .test,
   .fn "decode_05" [] unit_single_byte.decode_05,
   .test,
   .fn "encode_error_01" [] unit_single_byte.encode_error_01,
   .test,
   .fn "encode_error_02" [] unit_single_byte.encode_error_02,
   .test,
   .fn "encode_error_03" [] unit_single_byte.encode_error_03,
   .test,
   .fn "encode_error_04" [] unit_single_byte.encode_error_04,
   .test,
   .fn "encode_error_05" [] unit_single_byte.encode_error_05,
   .test,
   .fn "encode_error_06" [] unit_single_byte.encode_error_06,
   .test,
   .fn "decode_error_01" [] unit_single_byte.decode_error_01,
   .test,
   .fn "decode_error_02" [] unit_single_byte.decode_error_02,
   .test,
   .fn "decode_error_03" [] unit_single_byte.decode_error_03,
   .test,
   .fn "ascii_encode_error_01" [] unit_single_byte.ascii_encode_error_01,
   .test,
   .fn "ascii_encode_error_02" [] unit_single_byte.ascii_encode_error_02,
   .test,
   .fn "ascii_decode_error_01" [] unit_single_byte.ascii_decode_error_01,
   .test,
   .fn "ascii_decode_error_02" [] unit_single_byte.ascii_decode_error_02,
   .test,
   .fn "encode_latin1_01" [] unit_single_byte.encode_latin1_01,
   .test,
   .fn "decode_latin1_01" [] unit_single_byte.decode_latin1_01]

end Verif.Lang.Ast
