import Verif.Py.Ast
import Verif.Py.Parser
import Verif.Py.Semantics
import Verif.Files.Py
import Verif.Proof.Lang.KernelRfl

/-!
# The syntax trees are those of the generators' sources

Each by evaluation in the kernel: the parser, run on the text of the file, gives the syntax tree.
-/

namespace Verif.Py

open Lang

theorem parse_ascii_ext : parse Files.Py.ascii_ext.flatten = some Ast.ascii_ext := by kernel_rfl
theorem parse_shiftjis : parse Files.Py.shiftjis.flatten = some Ast.shiftjis := by kernel_rfl
theorem parse_big5 : parse Files.Py.big5.flatten = some Ast.big5 := by kernel_rfl

theorem separate_ascii_ext : Ast.ascii_ext.separate = true := by kernel_rfl
theorem separate_shiftjis : Ast.shiftjis.separate = true := by kernel_rfl
theorem separate_big5 : Ast.big5.separate = true := by kernel_rfl

end Verif.Py
