import Verif.Files.ShiftJis.Index1
import Verif.Proof.FileChecks

/-! Generated by tools/gen_files.py: the kernel compares the copies with the tables. -/

namespace Verif.Generator.ShiftJis

theorem index0 : linesB indexLineB nilB Files.ShiftJis.index0 Spec.Published.Jis0208.row0 = true := by
  decide +kernel

theorem index1 : linesB indexLineB nilB Files.ShiftJis.index1 Spec.Published.Jis0208.row1 = true := by
  decide +kernel

theorem index2 : linesB indexLineB nilB Files.ShiftJis.index2 Spec.Published.Jis0208.row2 = true := by
  decide +kernel

theorem index3 : linesB indexLineB nilB Files.ShiftJis.index3 Spec.Published.Jis0208.row3 = true := by
  decide +kernel

theorem index4 : linesB indexLineB nilB Files.ShiftJis.index4 Spec.Published.Jis0208.row4 = true := by
  decide +kernel

theorem index5 : linesB indexLineB nilB Files.ShiftJis.index5 Spec.Published.Jis0208.row5 = true := by
  decide +kernel

theorem index6 : linesB indexLineB nilB Files.ShiftJis.index6 Spec.Published.Jis0208.row6 = true := by
  decide +kernel

theorem index7 : linesB indexLineB nilB Files.ShiftJis.index7 Spec.Published.Jis0208.row7 = true := by
  decide +kernel

theorem index8 : linesB indexLineB nilB Files.ShiftJis.index8 Spec.Published.Jis0208.row8 = true := by
  decide +kernel

theorem index9 : linesB indexLineB nilB Files.ShiftJis.index9 Spec.Published.Jis0208.row9 = true := by
  decide +kernel

theorem index10 : linesB indexLineB nilB Files.ShiftJis.index10 Spec.Published.Jis0208.row10 = true := by
  decide +kernel

theorem index11 : linesB indexLineB nilB Files.ShiftJis.index11 Spec.Published.Jis0208.row11 = true := by
  decide +kernel

theorem index12 : linesB indexLineB nilB Files.ShiftJis.index12 Spec.Published.Jis0208.row12 = true := by
  decide +kernel

theorem index13 : linesB indexLineB nilB Files.ShiftJis.index13 Spec.Published.Jis0208.row13 = true := by
  decide +kernel

theorem index14 : linesB indexLineB nilB Files.ShiftJis.index14 Spec.Published.Jis0208.row14 = true := by
  decide +kernel

theorem index15 : linesB indexLineB nilB Files.ShiftJis.index15 Spec.Published.Jis0208.row15 = true := by
  decide +kernel

theorem index16 : linesB indexLineB nilB Files.ShiftJis.index16 Spec.Published.Jis0208.row16 = true := by
  decide +kernel

theorem index17 : linesB indexLineB nilB Files.ShiftJis.index17 Spec.Published.Jis0208.row17 = true := by
  decide +kernel

theorem index18 : linesB indexLineB nilB Files.ShiftJis.index18 Spec.Published.Jis0208.row18 = true := by
  decide +kernel

theorem index19 : linesB indexLineB nilB Files.ShiftJis.index19 Spec.Published.Jis0208.row19 = true := by
  decide +kernel

theorem index20 : linesB indexLineB nilB Files.ShiftJis.index20 Spec.Published.Jis0208.row20 = true := by
  decide +kernel

theorem index21 : linesB indexLineB nilB Files.ShiftJis.index21 Spec.Published.Jis0208.row21 = true := by
  decide +kernel

theorem index22 : linesB indexLineB nilB Files.ShiftJis.index22 Spec.Published.Jis0208.row22 = true := by
  decide +kernel

theorem index23 : linesB indexLineB nilB Files.ShiftJis.index23 Spec.Published.Jis0208.row23 = true := by
  decide +kernel

theorem index24 : linesB indexLineB nilB Files.ShiftJis.index24 Spec.Published.Jis0208.row24 = true := by
  decide +kernel

theorem index25 : linesB indexLineB nilB Files.ShiftJis.index25 Spec.Published.Jis0208.row25 = true := by
  decide +kernel

theorem index26 : linesB indexLineB nilB Files.ShiftJis.index26 Spec.Published.Jis0208.row26 = true := by
  decide +kernel

theorem index27 : linesB indexLineB nilB Files.ShiftJis.index27 Spec.Published.Jis0208.row27 = true := by
  decide +kernel

theorem index28 : linesB indexLineB nilB Files.ShiftJis.index28 Spec.Published.Jis0208.row28 = true := by
  decide +kernel

theorem index29 : linesB indexLineB nilB Files.ShiftJis.index29 Spec.Published.Jis0208.row29 = true := by
  decide +kernel

theorem index30 : linesB indexLineB nilB Files.ShiftJis.index30 Spec.Published.Jis0208.row30 = true := by
  decide +kernel

theorem index31 : linesB indexLineB nilB Files.ShiftJis.index31 Spec.Published.Jis0208.row31 = true := by
  decide +kernel

theorem index32 : linesB indexLineB nilB Files.ShiftJis.index32 Spec.Published.Jis0208.row32 = true := by
  decide +kernel

theorem index33 : linesB indexLineB nilB Files.ShiftJis.index33 Spec.Published.Jis0208.row33 = true := by
  decide +kernel

theorem index34 : linesB indexLineB nilB Files.ShiftJis.index34 Spec.Published.Jis0208.row34 = true := by
  decide +kernel

theorem index35 : linesB indexLineB nilB Files.ShiftJis.index35 Spec.Published.Jis0208.row35 = true := by
  decide +kernel

theorem index36 : linesB indexLineB nilB Files.ShiftJis.index36 Spec.Published.Jis0208.row36 = true := by
  decide +kernel

theorem index37 : linesB indexLineB nilB Files.ShiftJis.index37 Spec.Published.Jis0208.row37 = true := by
  decide +kernel

theorem index38 : linesB indexLineB nilB Files.ShiftJis.index38 Spec.Published.Jis0208.row38 = true := by
  decide +kernel

theorem index39 : linesB indexLineB nilB Files.ShiftJis.index39 Spec.Published.Jis0208.row39 = true := by
  decide +kernel

theorem index40 : linesB indexLineB nilB Files.ShiftJis.index40 Spec.Published.Jis0208.row40 = true := by
  decide +kernel

theorem index41 : linesB indexLineB nilB Files.ShiftJis.index41 Spec.Published.Jis0208.row41 = true := by
  decide +kernel

theorem index42 : linesB indexLineB nilB Files.ShiftJis.index42 Spec.Published.Jis0208.row42 = true := by
  decide +kernel

theorem index43 : linesB indexLineB nilB Files.ShiftJis.index43 Spec.Published.Jis0208.row43 = true := by
  decide +kernel

theorem index44 : linesB indexLineB nilB Files.ShiftJis.index44 Spec.Published.Jis0208.row44 = true := by
  decide +kernel

theorem index45 : linesB indexLineB nilB Files.ShiftJis.index45 Spec.Published.Jis0208.row45 = true := by
  decide +kernel

theorem index46 : linesB indexLineB nilB Files.ShiftJis.index46 Spec.Published.Jis0208.row46 = true := by
  decide +kernel

theorem index47 : linesB indexLineB nilB Files.ShiftJis.index47 Spec.Published.Jis0208.row47 = true := by
  decide +kernel

theorem index48 : linesB indexLineB nilB Files.ShiftJis.index48 Spec.Published.Jis0208.row48 = true := by
  decide +kernel

theorem index49 : linesB indexLineB nilB Files.ShiftJis.index49 Spec.Published.Jis0208.row49 = true := by
  decide +kernel

theorem index50 : linesB indexLineB nilB Files.ShiftJis.index50 Spec.Published.Jis0208.row50 = true := by
  decide +kernel

theorem index51 : linesB indexLineB nilB Files.ShiftJis.index51 Spec.Published.Jis0208.row51 = true := by
  decide +kernel

theorem index52 : linesB indexLineB nilB Files.ShiftJis.index52 Spec.Published.Jis0208.row52 = true := by
  decide +kernel

theorem index53 : linesB indexLineB nilB Files.ShiftJis.index53 Spec.Published.Jis0208.row53 = true := by
  decide +kernel

theorem index54 : linesB indexLineB nilB Files.ShiftJis.index54 Spec.Published.Jis0208.row54 = true := by
  decide +kernel

theorem index55 : linesB indexLineB nilB Files.ShiftJis.index55 Spec.Published.Jis0208.row55 = true := by
  decide +kernel

theorem index56 : linesB indexLineB nilB Files.ShiftJis.index56 Spec.Published.Jis0208.row56 = true := by
  decide +kernel

theorem index57 : linesB indexLineB nilB Files.ShiftJis.index57 Spec.Published.Jis0208.row57 = true := by
  decide +kernel

theorem index58 : linesB indexLineB nilB Files.ShiftJis.index58 Spec.Published.Jis0208.row58 = true := by
  decide +kernel

theorem index59 : linesB indexLineB nilB Files.ShiftJis.index59 Spec.Published.Jis0208.row59 = true := by
  decide +kernel

end Verif.Generator.ShiftJis
