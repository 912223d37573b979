import Verif.Lang.Ast
import Verif.Lang.UnitAst
import Verif.Lang.UnitTests
import Verif.Proof.Lang.KernelRfl

/-!
# The syntax trees are those of the sources

Each by evaluation in the kernel: the parser, run on the text of the file, gives the syntax tree. That
of the unit tests in the file is found along with it, since most of the work is in the tokens.
-/

namespace Verif.Lang

theorem parse_lib : parse Files.Src.lib.flatten = some Ast.lib := by kernel_rfl
theorem parses_utf8 :
    (parse Files.Src.utf8.flatten, parseUnit Files.Src.utf8.flatten) =
      (some Ast.utf8, some Ast.unit_utf8) := by kernel_rfl
theorem parses_utf16_be :
    (parse Files.Src.utf16_be.flatten, parseUnit Files.Src.utf16_be.flatten) =
      (some Ast.utf16_be, some Ast.unit_utf16_be) := by kernel_rfl
theorem parses_utf16_le :
    (parse Files.Src.utf16_le.flatten, parseUnit Files.Src.utf16_le.flatten) =
      (some Ast.utf16_le, some Ast.unit_utf16_le) := by kernel_rfl
theorem parses_utf32_be :
    (parse Files.Src.utf32_be.flatten, parseUnit Files.Src.utf32_be.flatten) =
      (some Ast.utf32_be, some Ast.unit_utf32_be) := by kernel_rfl
theorem parses_utf32_le :
    (parse Files.Src.utf32_le.flatten, parseUnit Files.Src.utf32_le.flatten) =
      (some Ast.utf32_le, some Ast.unit_utf32_le) := by kernel_rfl
theorem parses_shiftjis_whatwg :
    (parse Files.Src.shiftjis_whatwg.flatten, parseUnit Files.Src.shiftjis_whatwg.flatten) =
      (some Ast.shiftjis_whatwg, some Ast.unit_shiftjis_whatwg) := by kernel_rfl
theorem parses_big5_whatwg :
    (parse Files.Src.big5_whatwg.flatten, parseUnit Files.Src.big5_whatwg.flatten) =
      (some Ast.big5_whatwg, some Ast.unit_big5_whatwg) := by kernel_rfl
theorem parses_single_byte :
    (parse Files.Src.single_byte.flatten, parseUnit Files.Src.single_byte.flatten) =
      (some Ast.single_byte, some Ast.unit_single_byte) := by kernel_rfl
theorem parse_wrapper : parse Files.Src.wrapper.flatten = some Ast.wrapper := by kernel_rfl

theorem parse_utf8 : parse Files.Src.utf8.flatten = some Ast.utf8 :=
  (Prod.mk.inj parses_utf8).1
theorem parse_utf16_be : parse Files.Src.utf16_be.flatten = some Ast.utf16_be :=
  (Prod.mk.inj parses_utf16_be).1
theorem parse_utf16_le : parse Files.Src.utf16_le.flatten = some Ast.utf16_le :=
  (Prod.mk.inj parses_utf16_le).1
theorem parse_utf32_be : parse Files.Src.utf32_be.flatten = some Ast.utf32_be :=
  (Prod.mk.inj parses_utf32_be).1
theorem parse_utf32_le : parse Files.Src.utf32_le.flatten = some Ast.utf32_le :=
  (Prod.mk.inj parses_utf32_le).1
theorem parse_shiftjis_whatwg : parse Files.Src.shiftjis_whatwg.flatten = some Ast.shiftjis_whatwg :=
  (Prod.mk.inj parses_shiftjis_whatwg).1
theorem parse_big5_whatwg : parse Files.Src.big5_whatwg.flatten = some Ast.big5_whatwg :=
  (Prod.mk.inj parses_big5_whatwg).1
theorem parse_single_byte : parse Files.Src.single_byte.flatten = some Ast.single_byte :=
  (Prod.mk.inj parses_single_byte).1

theorem unit_utf8 : parseUnit Files.Src.utf8.flatten = some Ast.unit_utf8 :=
  (Prod.mk.inj parses_utf8).2
theorem unit_utf16_be : parseUnit Files.Src.utf16_be.flatten = some Ast.unit_utf16_be :=
  (Prod.mk.inj parses_utf16_be).2
theorem unit_utf16_le : parseUnit Files.Src.utf16_le.flatten = some Ast.unit_utf16_le :=
  (Prod.mk.inj parses_utf16_le).2
theorem unit_utf32_be : parseUnit Files.Src.utf32_be.flatten = some Ast.unit_utf32_be :=
  (Prod.mk.inj parses_utf32_be).2
theorem unit_utf32_le : parseUnit Files.Src.utf32_le.flatten = some Ast.unit_utf32_le :=
  (Prod.mk.inj parses_utf32_le).2
theorem unit_shiftjis_whatwg : parseUnit Files.Src.shiftjis_whatwg.flatten = some Ast.unit_shiftjis_whatwg :=
  (Prod.mk.inj parses_shiftjis_whatwg).2
theorem unit_big5_whatwg : parseUnit Files.Src.big5_whatwg.flatten = some Ast.unit_big5_whatwg :=
  (Prod.mk.inj parses_big5_whatwg).2
theorem unit_single_byte : parseUnit Files.Src.single_byte.flatten = some Ast.unit_single_byte :=
  (Prod.mk.inj parses_single_byte).2

end Verif.Lang
