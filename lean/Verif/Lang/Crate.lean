import Verif.Lang.Parser
import Verif.Lang.Semantics
import Verif.Files.Src
import Verif.Files.SingleByte
import Verif.Files.ShiftJis
import Verif.Files.Big5

/-!
# The crate

The source files, and how they make up the modules of the crate: `mod name;` stands for the items of
`name.rs`, `include!(path);` for the items of that file. Visibility is not checked.
-/

namespace Verif.Lang

/-- The source files of the crate, by their paths in /repo/src: verbatim copies. -/
noncomputable def files : List (String × List Text) :=
  [("lib.rs", Files.Src.lib),
    ("utf8.rs", Files.Src.utf8),
    ("utf16_be.rs", Files.Src.utf16_be),
    ("utf16_le.rs", Files.Src.utf16_le),
    ("utf32_be.rs", Files.Src.utf32_be),
    ("utf32_le.rs", Files.Src.utf32_le),
    ("shiftjis_whatwg.rs", Files.Src.shiftjis_whatwg),
    ("big5_whatwg.rs", Files.Src.big5_whatwg),
    ("single_byte.rs", Files.Src.single_byte),
    ("generated/whatwg/shiftjis_whatwg_tables.rs.inc", Files.ShiftJis.source),
    ("generated/whatwg/big5_whatwg_tables.rs.inc", Files.Big5.source),
    ("generated/single_byte/ibm-cp866_tables.rs.inc", Files.source .Ibm866),
    ("generated/single_byte/iso-8859-1_tables.rs.inc", Files.source .Iso8859_1),
    ("generated/single_byte/iso-8859-2_tables.rs.inc", Files.source .Iso8859_2),
    ("generated/single_byte/iso-8859-3_tables.rs.inc", Files.source .Iso8859_3),
    ("generated/single_byte/iso-8859-4_tables.rs.inc", Files.source .Iso8859_4),
    ("generated/single_byte/iso-8859-5_tables.rs.inc", Files.source .Iso8859_5),
    ("generated/single_byte/iso-8859-6_tables.rs.inc", Files.source .Iso8859_6),
    ("generated/single_byte/iso-8859-7_tables.rs.inc", Files.source .Iso8859_7),
    ("generated/single_byte/iso-8859-8_tables.rs.inc", Files.source .Iso8859_8),
    ("generated/single_byte/iso-8859-9_tables.rs.inc", Files.source .Iso8859_9),
    ("generated/single_byte/iso-8859-10_tables.rs.inc", Files.source .Iso8859_10),
    ("generated/single_byte/iso-8859-11_tables.rs.inc", Files.source .Iso8859_11),
    ("generated/single_byte/iso-8859-13_tables.rs.inc", Files.source .Iso8859_13),
    ("generated/single_byte/iso-8859-14_tables.rs.inc", Files.source .Iso8859_14),
    ("generated/single_byte/iso-8859-15_tables.rs.inc", Files.source .Iso8859_15),
    ("generated/single_byte/iso-8859-16_tables.rs.inc", Files.source .Iso8859_16),
    ("generated/single_byte/koi8-r_tables.rs.inc", Files.source .Koi8R),
    ("generated/single_byte/koi8-u_tables.rs.inc", Files.source .Koi8U),
    ("generated/single_byte/mac-roman_tables.rs.inc", Files.source .Macintosh),
    ("generated/single_byte/mac-cyrillic_tables.rs.inc", Files.source .MacCyrillic),
    ("generated/single_byte/windows-cp874_tables.rs.inc", Files.source .Windows874),
    ("generated/single_byte/windows-cp1250_tables.rs.inc", Files.source .Windows1250),
    ("generated/single_byte/windows-cp1251_tables.rs.inc", Files.source .Windows1251),
    ("generated/single_byte/windows-cp1252_tables.rs.inc", Files.source .Windows1252),
    ("generated/single_byte/windows-cp1253_tables.rs.inc", Files.source .Windows1253),
    ("generated/single_byte/windows-cp1254_tables.rs.inc", Files.source .Windows1254),
    ("generated/single_byte/windows-cp1255_tables.rs.inc", Files.source .Windows1255),
    ("generated/single_byte/windows-cp1256_tables.rs.inc", Files.source .Windows1256),
    ("generated/single_byte/windows-cp1257_tables.rs.inc", Files.source .Windows1257),
    ("generated/single_byte/windows-cp1258_tables.rs.inc", Files.source .Windows1258)]

/-- The items of a source file. -/
noncomputable def itemsOf (path : String) : Option (List Item) :=
  match files.lookup path with
  | some ls => parse ls.flatten
  | none => none

/-- The items with those of the included files in place of each `include!`. -/
noncomputable def included : List Item → Option (List Item)
  | [] => some []
  | .include path :: is =>
    match itemsOf path, included is with
    | some js, some is => some (js ++ is)
    | _, _ => none
  | i :: is => (included is).map (i :: ·)

/-- The items of the module of this name among the items. -/
noncomputable def moduleIn (name : String) : List Item → Option (List Item)
  | [] => none
  | .mod x sub :: is => if x = name then included sub else moduleIn name is
  | .file x :: is =>
    if x = name then (itemsOf (x ++ ".rs")).bind included else moduleIn name is
  | _ :: is => moduleIn name is

/-- The module with this path and the modules around it. -/
noncomputable def scopeAt : List String → Scope → Option Scope
  | [], sc => some sc
  | _ :: _, [] => none
  | x :: path, is :: sc =>
    match moduleIn x is with
    | some js => scopeAt path (js :: is :: sc)
    | none => none

/-- The root of the crate. -/
noncomputable def root : Option Scope :=
  match (itemsOf "lib.rs").bind included with
  | some is => some [is]
  | none => none

/-- A call of the function of this name in the module with this path, as the source texts have it.
`fuel` bounds the rounds of loops and the depth of calls. -/
noncomputable def run (m : Machine.Target) (fuel : Nat) (path : List String) (name : String)
    (args : List Value) : CallResult :=
  match root.bind (scopeAt path) with
  | some sc => invoke m fuel fuel sc name args
  | none => .error none

end Verif.Lang
