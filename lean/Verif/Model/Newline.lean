import Verif.Spec.Tokens
/-
The tables /repo/modules/inter/UNIX.txt, WIN.txt and MAC.txt, line by line.
-/
namespace Verif.Newline
open Verif.Spec

/-- /repo/modules/inter/UNIX.txt:2-4 -/
def unix : Rules Datum (List Datum) :=
  [([[1, 0x0D], [1, 0x0A]], [[1, 0x0A]]), ([[1, 0x0A]], [[1, 0x0A]]), ([[1, 0x0D]], [[1, 0x0A]])]

/-- /repo/modules/inter/WIN.txt:2-4 -/
def win : Rules Datum (List Datum) :=
  [([[1, 0x0D], [1, 0x0A]], [[1, 0x0D], [1, 0x0A]]), ([[1, 0x0A]], [[1, 0x0D], [1, 0x0A]]),
   ([[1, 0x0D]], [[1, 0x0D], [1, 0x0A]])]

/-- /repo/modules/inter/MAC.txt:2-4 -/
def mac : Rules Datum (List Datum) :=
  [([[1, 0x0D], [1, 0x0A]], [[1, 0x0D]]), ([[1, 0x0A]], [[1, 0x0D]]), ([[1, 0x0D]], [[1, 0x0D]])]

end Verif.Newline
