import Verif.Lang.TestAst
import Verif.Lang.Parser
import Verif.Files.TestSrc
import Verif.Proof.Lang.KernelRfl

/-!
# The syntax trees of tests/*.rs are those of the sources
-/

namespace Verif.Lang

theorem parse_property_tests :
    parse Files.TestSrc.property_tests.flatten = some Ast.property_tests := by kernel_rfl
theorem parse_shiftjis_tests :
    parse Files.TestSrc.shiftjis.flatten = some Ast.shiftjis := by kernel_rfl
theorem parse_big5_tests : parse Files.TestSrc.big5.flatten = some Ast.big5 := by kernel_rfl

end Verif.Lang
