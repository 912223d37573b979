import Verif.Files.ShiftJis.Index1
import Verif.Files.ShiftJis.Decode1
import Verif.Files.ShiftJis.Encode1

/-! Generated by tools/gen_files.py: the files of ShiftJis. -/

namespace Verif.Files.ShiftJis

/-- The parts of encoding_tables/whatwg/index-jis0208.txt -/
noncomputable def indexParts : List (List Text) :=
  [index0, index1, index2, index3, index4, index5, index6, index7, index8, index9, index10, index11, index12, index13, index14, index15, index16, index17, index18, index19, index20, index21, index22, index23, index24, index25, index26, index27, index28, index29, index30, index31, index32, index33, index34, index35, index36, index37, index38, index39, index40, index41, index42, index43, index44, index45, index46, index47, index48, index49, index50, index51, index52, index53, index54, index55, index56, index57, index58, index59]

/-- encoding_tables/whatwg/index-jis0208.txt, by lines -/
noncomputable def index : List Text := indexParts.flatten

/-- src/generated/whatwg/shiftjis_whatwg_tables.rs.inc:1-4 -/
noncomputable def head : List Text := lines! r#"// This file is auto-generated.  Please see `encoding_tables/whatwg/`
// from the root directory for the files that generate this.

const DECODE_TABLE: [char; 11104] = [
"#

/-- src/generated/whatwg/shiftjis_whatwg_tables.rs.inc:1393-1395 -/
noncomputable def mid : List Text := lines! r#"];

const ENCODE_TABLE: [(char, [u8; 2]); 7326] = [
"#

/-- src/generated/whatwg/shiftjis_whatwg_tables.rs.inc:3838-3838 -/
noncomputable def tail : List Text := lines! r#"];
"#

/-- The parts of the lines of the decode table.  src/generated/whatwg/shiftjis_whatwg_tables.rs.inc:5-1392 -/
noncomputable def decodeParts : List (List Text) :=
  [decode0, decode1, decode2, decode3, decode4, decode5, decode6, decode7, decode8, decode9, decode10, decode11, decode12, decode13, decode14, decode15, decode16, decode17, decode18, decode19, decode20, decode21, decode22, decode23, decode24, decode25, decode26, decode27, decode28, decode29]

/-- The parts of the lines of the encode table.  src/generated/whatwg/shiftjis_whatwg_tables.rs.inc:1396-3837 -/
noncomputable def encodeParts : List (List Text) :=
  [encode0, encode1, encode2, encode3, encode4, encode5, encode6, encode7, encode8, encode9, encode10, encode11, encode12, encode13, encode14, encode15, encode16, encode17, encode18, encode19]

/-- src/generated/whatwg/shiftjis_whatwg_tables.rs.inc, by lines -/
noncomputable def source : List Text :=
  head ++ decodeParts.flatten ++ mid ++ encodeParts.flatten ++ tail

end Verif.Files.ShiftJis
