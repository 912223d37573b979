import Verif.Files.Big5.Index2
import Verif.Proof.FileChecks

/-! Generated by tools/gen_files.py: the kernel compares the copies with the tables. -/

namespace Verif.Generator.Big5

theorem index64 : linesB indexLineB nilB Files.Big5.index64 Spec.Published.Big5.row64 = true := by
  decide +kernel

theorem index65 : linesB indexLineB nilB Files.Big5.index65 Spec.Published.Big5.row65 = true := by
  decide +kernel

theorem index66 : linesB indexLineB nilB Files.Big5.index66 Spec.Published.Big5.row66 = true := by
  decide +kernel

theorem index67 : linesB indexLineB nilB Files.Big5.index67 Spec.Published.Big5.row67 = true := by
  decide +kernel

theorem index68 : linesB indexLineB nilB Files.Big5.index68 Spec.Published.Big5.row68 = true := by
  decide +kernel

theorem index69 : linesB indexLineB nilB Files.Big5.index69 Spec.Published.Big5.row69 = true := by
  decide +kernel

theorem index70 : linesB indexLineB nilB Files.Big5.index70 Spec.Published.Big5.row70 = true := by
  decide +kernel

theorem index71 : linesB indexLineB nilB Files.Big5.index71 Spec.Published.Big5.row71 = true := by
  decide +kernel

theorem index72 : linesB indexLineB nilB Files.Big5.index72 Spec.Published.Big5.row72 = true := by
  decide +kernel

theorem index73 : linesB indexLineB nilB Files.Big5.index73 Spec.Published.Big5.row73 = true := by
  decide +kernel

theorem index74 : linesB indexLineB nilB Files.Big5.index74 Spec.Published.Big5.row74 = true := by
  decide +kernel

theorem index75 : linesB indexLineB nilB Files.Big5.index75 Spec.Published.Big5.row75 = true := by
  decide +kernel

theorem index76 : linesB indexLineB nilB Files.Big5.index76 Spec.Published.Big5.row76 = true := by
  decide +kernel

theorem index77 : linesB indexLineB nilB Files.Big5.index77 Spec.Published.Big5.row77 = true := by
  decide +kernel

theorem index78 : linesB indexLineB nilB Files.Big5.index78 Spec.Published.Big5.row78 = true := by
  decide +kernel

theorem index79 : linesB indexLineB nilB Files.Big5.index79 Spec.Published.Big5.row79 = true := by
  decide +kernel

theorem index80 : linesB indexLineB nilB Files.Big5.index80 Spec.Published.Big5.row80 = true := by
  decide +kernel

theorem index81 : linesB indexLineB nilB Files.Big5.index81 Spec.Published.Big5.row81 = true := by
  decide +kernel

theorem index82 : linesB indexLineB nilB Files.Big5.index82 Spec.Published.Big5.row82 = true := by
  decide +kernel

theorem index83 : linesB indexLineB nilB Files.Big5.index83 Spec.Published.Big5.row83 = true := by
  decide +kernel

theorem index84 : linesB indexLineB nilB Files.Big5.index84 Spec.Published.Big5.row84 = true := by
  decide +kernel

theorem index85 : linesB indexLineB nilB Files.Big5.index85 Spec.Published.Big5.row85 = true := by
  decide +kernel

theorem index86 : linesB indexLineB nilB Files.Big5.index86 Spec.Published.Big5.row86 = true := by
  decide +kernel

theorem index87 : linesB indexLineB nilB Files.Big5.index87 Spec.Published.Big5.row87 = true := by
  decide +kernel

theorem index88 : linesB indexLineB nilB Files.Big5.index88 Spec.Published.Big5.row88 = true := by
  decide +kernel

theorem index89 : linesB indexLineB nilB Files.Big5.index89 Spec.Published.Big5.row89 = true := by
  decide +kernel

theorem index90 : linesB indexLineB nilB Files.Big5.index90 Spec.Published.Big5.row90 = true := by
  decide +kernel

theorem index91 : linesB indexLineB nilB Files.Big5.index91 Spec.Published.Big5.row91 = true := by
  decide +kernel

theorem index92 : linesB indexLineB nilB Files.Big5.index92 Spec.Published.Big5.row92 = true := by
  decide +kernel

theorem index93 : linesB indexLineB nilB Files.Big5.index93 Spec.Published.Big5.row93 = true := by
  decide +kernel

theorem index94 : linesB indexLineB nilB Files.Big5.index94 Spec.Published.Big5.row94 = true := by
  decide +kernel

theorem index95 : linesB indexLineB nilB Files.Big5.index95 Spec.Published.Big5.row95 = true := by
  decide +kernel

theorem index96 : linesB indexLineB nilB Files.Big5.index96 Spec.Published.Big5.row96 = true := by
  decide +kernel

theorem index97 : linesB indexLineB nilB Files.Big5.index97 Spec.Published.Big5.row97 = true := by
  decide +kernel

theorem index98 : linesB indexLineB nilB Files.Big5.index98 Spec.Published.Big5.row98 = true := by
  decide +kernel

theorem index99 : linesB indexLineB nilB Files.Big5.index99 Spec.Published.Big5.row99 = true := by
  decide +kernel

theorem index100 : linesB indexLineB nilB Files.Big5.index100 Spec.Published.Big5.row100 = true := by
  decide +kernel

theorem index101 : linesB indexLineB nilB Files.Big5.index101 Spec.Published.Big5.row101 = true := by
  decide +kernel

theorem index102 : linesB indexLineB nilB Files.Big5.index102 Spec.Published.Big5.row102 = true := by
  decide +kernel

theorem index103 : linesB indexLineB nilB Files.Big5.index103 Spec.Published.Big5.row103 = true := by
  decide +kernel

theorem index104 : linesB indexLineB nilB Files.Big5.index104 Spec.Published.Big5.row104 = true := by
  decide +kernel

theorem index105 : linesB indexLineB nilB Files.Big5.index105 Spec.Published.Big5.row105 = true := by
  decide +kernel

theorem index106 : linesB indexLineB nilB Files.Big5.index106 Spec.Published.Big5.row106 = true := by
  decide +kernel

theorem index107 : linesB indexLineB nilB Files.Big5.index107 Spec.Published.Big5.row107 = true := by
  decide +kernel

theorem index108 : linesB indexLineB nilB Files.Big5.index108 Spec.Published.Big5.row108 = true := by
  decide +kernel

theorem index109 : linesB indexLineB nilB Files.Big5.index109 Spec.Published.Big5.row109 = true := by
  decide +kernel

theorem index110 : linesB indexLineB nilB Files.Big5.index110 Spec.Published.Big5.row110 = true := by
  decide +kernel

theorem index111 : linesB indexLineB nilB Files.Big5.index111 Spec.Published.Big5.row111 = true := by
  decide +kernel

theorem index112 : linesB indexLineB nilB Files.Big5.index112 Spec.Published.Big5.row112 = true := by
  decide +kernel

theorem index113 : linesB indexLineB nilB Files.Big5.index113 Spec.Published.Big5.row113 = true := by
  decide +kernel

theorem index114 : linesB indexLineB nilB Files.Big5.index114 Spec.Published.Big5.row114 = true := by
  decide +kernel

theorem index115 : linesB indexLineB nilB Files.Big5.index115 Spec.Published.Big5.row115 = true := by
  decide +kernel

theorem index116 : linesB indexLineB nilB Files.Big5.index116 Spec.Published.Big5.row116 = true := by
  decide +kernel

theorem index117 : linesB indexLineB nilB Files.Big5.index117 Spec.Published.Big5.row117 = true := by
  decide +kernel

theorem index118 : linesB indexLineB nilB Files.Big5.index118 Spec.Published.Big5.row118 = true := by
  decide +kernel

theorem index119 : linesB indexLineB nilB Files.Big5.index119 Spec.Published.Big5.row119 = true := by
  decide +kernel

theorem index120 : linesB indexLineB nilB Files.Big5.index120 Spec.Published.Big5.row120 = true := by
  decide +kernel

theorem index121 : linesB indexLineB nilB Files.Big5.index121 Spec.Published.Big5.row121 = true := by
  decide +kernel

theorem index122 : linesB indexLineB nilB Files.Big5.index122 Spec.Published.Big5.row122 = true := by
  decide +kernel

theorem index123 : linesB indexLineB nilB Files.Big5.index123 Spec.Published.Big5.row123 = true := by
  decide +kernel

theorem index124 : linesB indexLineB nilB Files.Big5.index124 Spec.Published.Big5.row124 = true := by
  decide +kernel

theorem index125 : linesB indexLineB nilB Files.Big5.index125 Spec.Published.Big5.row125 = true := by
  decide +kernel

end Verif.Generator.Big5
