import Verif.Files.Big5.Index1
import Verif.Files.Big5.Index2
import Verif.Files.Big5.Decode1
import Verif.Files.Big5.Encode1
import Verif.Files.Big5.Encode2

/-! Generated by tools/gen_files.py: the files of Big5. -/

namespace Verif.Files.Big5

/-- The parts of encoding_tables/whatwg/index-big5.txt -/
noncomputable def indexParts : List (List Text) :=
  [index0, index1, index2, index3, index4, index5, index6, index7, index8, index9, index10, index11, index12, index13, index14, index15, index16, index17, index18, index19, index20, index21, index22, index23, index24, index25, index26, index27, index28, index29, index30, index31, index32, index33, index34, index35, index36, index37, index38, index39, index40, index41, index42, index43, index44, index45, index46, index47, index48, index49, index50, index51, index52, index53, index54, index55, index56, index57, index58, index59, index60, index61, index62, index63, index64, index65, index66, index67, index68, index69, index70, index71, index72, index73, index74, index75, index76, index77, index78, index79, index80, index81, index82, index83, index84, index85, index86, index87, index88, index89, index90, index91, index92, index93, index94, index95, index96, index97, index98, index99, index100, index101, index102, index103, index104, index105, index106, index107, index108, index109, index110, index111, index112, index113, index114, index115, index116, index117, index118, index119, index120, index121, index122, index123, index124, index125]

/-- encoding_tables/whatwg/index-big5.txt, by lines -/
noncomputable def index : List Text := indexParts.flatten

/-- src/generated/whatwg/big5_whatwg_tables.rs.inc:1-4 -/
noncomputable def head : List Text := lines! r#"// This file is auto-generated.  Please see `encoding_tables/whatwg/`
// from the root directory for the files that generate this.

const DECODE_TABLE: [char; 19782] = [
"#

/-- src/generated/whatwg/big5_whatwg_tables.rs.inc:2478-2480 -/
noncomputable def mid : List Text := lines! r#"];

const ENCODE_TABLE: [(char, [u8; 2]); 18490] = [
"#

/-- src/generated/whatwg/big5_whatwg_tables.rs.inc:8645-8645 -/
noncomputable def tail : List Text := lines! r#"];
"#

/-- The parts of the lines of the decode table.  src/generated/whatwg/big5_whatwg_tables.rs.inc:5-2477 -/
noncomputable def decodeParts : List (List Text) :=
  [decode0, decode1, decode2, decode3, decode4, decode5, decode6, decode7, decode8, decode9, decode10, decode11, decode12, decode13, decode14, decode15]

/-- The parts of the lines of the encode table.  src/generated/whatwg/big5_whatwg_tables.rs.inc:2481-8644 -/
noncomputable def encodeParts : List (List Text) :=
  [encode0, encode1, encode2, encode3, encode4, encode5, encode6, encode7, encode8, encode9, encode10, encode11, encode12, encode13, encode14, encode15, encode16, encode17, encode18, encode19, encode20, encode21, encode22, encode23, encode24, encode25, encode26, encode27, encode28, encode29, encode30, encode31, encode32, encode33, encode34, encode35, encode36, encode37, encode38, encode39, encode40, encode41, encode42, encode43, encode44, encode45, encode46, encode47, encode48]

/-- src/generated/whatwg/big5_whatwg_tables.rs.inc, by lines -/
noncomputable def source : List Text :=
  head ++ decodeParts.flatten ++ mid ++ encodeParts.flatten ++ tail

end Verif.Files.Big5
