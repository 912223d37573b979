import Verif.Files.Big5.Index1
import Verif.Proof.FileChecks

/-! Generated by tools/gen_files.py: the kernel compares the copies with the tables. -/

namespace Verif.Generator.Big5

theorem index0 : linesB indexLineB nilB Files.Big5.index0 Spec.Published.Big5.row0 = true := by
  decide +kernel

theorem index1 : linesB indexLineB nilB Files.Big5.index1 Spec.Published.Big5.row1 = true := by
  decide +kernel

theorem index2 : linesB indexLineB nilB Files.Big5.index2 Spec.Published.Big5.row2 = true := by
  decide +kernel

theorem index3 : linesB indexLineB nilB Files.Big5.index3 Spec.Published.Big5.row3 = true := by
  decide +kernel

theorem index4 : linesB indexLineB nilB Files.Big5.index4 Spec.Published.Big5.row4 = true := by
  decide +kernel

theorem index5 : linesB indexLineB nilB Files.Big5.index5 Spec.Published.Big5.row5 = true := by
  decide +kernel

theorem index6 : linesB indexLineB nilB Files.Big5.index6 Spec.Published.Big5.row6 = true := by
  decide +kernel

theorem index7 : linesB indexLineB nilB Files.Big5.index7 Spec.Published.Big5.row7 = true := by
  decide +kernel

theorem index8 : linesB indexLineB nilB Files.Big5.index8 Spec.Published.Big5.row8 = true := by
  decide +kernel

theorem index9 : linesB indexLineB nilB Files.Big5.index9 Spec.Published.Big5.row9 = true := by
  decide +kernel

theorem index10 : linesB indexLineB nilB Files.Big5.index10 Spec.Published.Big5.row10 = true := by
  decide +kernel

theorem index11 : linesB indexLineB nilB Files.Big5.index11 Spec.Published.Big5.row11 = true := by
  decide +kernel

theorem index12 : linesB indexLineB nilB Files.Big5.index12 Spec.Published.Big5.row12 = true := by
  decide +kernel

theorem index13 : linesB indexLineB nilB Files.Big5.index13 Spec.Published.Big5.row13 = true := by
  decide +kernel

theorem index14 : linesB indexLineB nilB Files.Big5.index14 Spec.Published.Big5.row14 = true := by
  decide +kernel

theorem index15 : linesB indexLineB nilB Files.Big5.index15 Spec.Published.Big5.row15 = true := by
  decide +kernel

theorem index16 : linesB indexLineB nilB Files.Big5.index16 Spec.Published.Big5.row16 = true := by
  decide +kernel

theorem index17 : linesB indexLineB nilB Files.Big5.index17 Spec.Published.Big5.row17 = true := by
  decide +kernel

theorem index18 : linesB indexLineB nilB Files.Big5.index18 Spec.Published.Big5.row18 = true := by
  decide +kernel

theorem index19 : linesB indexLineB nilB Files.Big5.index19 Spec.Published.Big5.row19 = true := by
  decide +kernel

theorem index20 : linesB indexLineB nilB Files.Big5.index20 Spec.Published.Big5.row20 = true := by
  decide +kernel

theorem index21 : linesB indexLineB nilB Files.Big5.index21 Spec.Published.Big5.row21 = true := by
  decide +kernel

theorem index22 : linesB indexLineB nilB Files.Big5.index22 Spec.Published.Big5.row22 = true := by
  decide +kernel

theorem index23 : linesB indexLineB nilB Files.Big5.index23 Spec.Published.Big5.row23 = true := by
  decide +kernel

theorem index24 : linesB indexLineB nilB Files.Big5.index24 Spec.Published.Big5.row24 = true := by
  decide +kernel

theorem index25 : linesB indexLineB nilB Files.Big5.index25 Spec.Published.Big5.row25 = true := by
  decide +kernel

theorem index26 : linesB indexLineB nilB Files.Big5.index26 Spec.Published.Big5.row26 = true := by
  decide +kernel

theorem index27 : linesB indexLineB nilB Files.Big5.index27 Spec.Published.Big5.row27 = true := by
  decide +kernel

theorem index28 : linesB indexLineB nilB Files.Big5.index28 Spec.Published.Big5.row28 = true := by
  decide +kernel

theorem index29 : linesB indexLineB nilB Files.Big5.index29 Spec.Published.Big5.row29 = true := by
  decide +kernel

theorem index30 : linesB indexLineB nilB Files.Big5.index30 Spec.Published.Big5.row30 = true := by
  decide +kernel

theorem index31 : linesB indexLineB nilB Files.Big5.index31 Spec.Published.Big5.row31 = true := by
  decide +kernel

theorem index32 : linesB indexLineB nilB Files.Big5.index32 Spec.Published.Big5.row32 = true := by
  decide +kernel

theorem index33 : linesB indexLineB nilB Files.Big5.index33 Spec.Published.Big5.row33 = true := by
  decide +kernel

theorem index34 : linesB indexLineB nilB Files.Big5.index34 Spec.Published.Big5.row34 = true := by
  decide +kernel

theorem index35 : linesB indexLineB nilB Files.Big5.index35 Spec.Published.Big5.row35 = true := by
  decide +kernel

theorem index36 : linesB indexLineB nilB Files.Big5.index36 Spec.Published.Big5.row36 = true := by
  decide +kernel

theorem index37 : linesB indexLineB nilB Files.Big5.index37 Spec.Published.Big5.row37 = true := by
  decide +kernel

theorem index38 : linesB indexLineB nilB Files.Big5.index38 Spec.Published.Big5.row38 = true := by
  decide +kernel

theorem index39 : linesB indexLineB nilB Files.Big5.index39 Spec.Published.Big5.row39 = true := by
  decide +kernel

theorem index40 : linesB indexLineB nilB Files.Big5.index40 Spec.Published.Big5.row40 = true := by
  decide +kernel

theorem index41 : linesB indexLineB nilB Files.Big5.index41 Spec.Published.Big5.row41 = true := by
  decide +kernel

theorem index42 : linesB indexLineB nilB Files.Big5.index42 Spec.Published.Big5.row42 = true := by
  decide +kernel

theorem index43 : linesB indexLineB nilB Files.Big5.index43 Spec.Published.Big5.row43 = true := by
  decide +kernel

theorem index44 : linesB indexLineB nilB Files.Big5.index44 Spec.Published.Big5.row44 = true := by
  decide +kernel

theorem index45 : linesB indexLineB nilB Files.Big5.index45 Spec.Published.Big5.row45 = true := by
  decide +kernel

theorem index46 : linesB indexLineB nilB Files.Big5.index46 Spec.Published.Big5.row46 = true := by
  decide +kernel

theorem index47 : linesB indexLineB nilB Files.Big5.index47 Spec.Published.Big5.row47 = true := by
  decide +kernel

theorem index48 : linesB indexLineB nilB Files.Big5.index48 Spec.Published.Big5.row48 = true := by
  decide +kernel

theorem index49 : linesB indexLineB nilB Files.Big5.index49 Spec.Published.Big5.row49 = true := by
  decide +kernel

theorem index50 : linesB indexLineB nilB Files.Big5.index50 Spec.Published.Big5.row50 = true := by
  decide +kernel

theorem index51 : linesB indexLineB nilB Files.Big5.index51 Spec.Published.Big5.row51 = true := by
  decide +kernel

theorem index52 : linesB indexLineB nilB Files.Big5.index52 Spec.Published.Big5.row52 = true := by
  decide +kernel

theorem index53 : linesB indexLineB nilB Files.Big5.index53 Spec.Published.Big5.row53 = true := by
  decide +kernel

theorem index54 : linesB indexLineB nilB Files.Big5.index54 Spec.Published.Big5.row54 = true := by
  decide +kernel

theorem index55 : linesB indexLineB nilB Files.Big5.index55 Spec.Published.Big5.row55 = true := by
  decide +kernel

theorem index56 : linesB indexLineB nilB Files.Big5.index56 Spec.Published.Big5.row56 = true := by
  decide +kernel

theorem index57 : linesB indexLineB nilB Files.Big5.index57 Spec.Published.Big5.row57 = true := by
  decide +kernel

theorem index58 : linesB indexLineB nilB Files.Big5.index58 Spec.Published.Big5.row58 = true := by
  decide +kernel

theorem index59 : linesB indexLineB nilB Files.Big5.index59 Spec.Published.Big5.row59 = true := by
  decide +kernel

theorem index60 : linesB indexLineB nilB Files.Big5.index60 Spec.Published.Big5.row60 = true := by
  decide +kernel

theorem index61 : linesB indexLineB nilB Files.Big5.index61 Spec.Published.Big5.row61 = true := by
  decide +kernel

theorem index62 : linesB indexLineB nilB Files.Big5.index62 Spec.Published.Big5.row62 = true := by
  decide +kernel

theorem index63 : linesB indexLineB nilB Files.Big5.index63 Spec.Published.Big5.row63 = true := by
  decide +kernel

end Verif.Generator.Big5
