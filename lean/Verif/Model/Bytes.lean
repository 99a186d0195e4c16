import Verif.Spec.Tokens
/-
The codecs BYTE and HEX: /repo/modules/from/BYTE.txt, /repo/modules/to/BYTE.txt, /repo/modules/from/HEX.txt and /repo/modules/to/HEX.txt.
-/
namespace Verif.Bytes
open Verif.Spec (Rules)

/-- /repo/modules/from/BYTE.txt:1-256 -/
def byteFrom : Rules Nat (List (List Nat)) := (List.range 256).map fun b => ([b], [[3, b]])

/-- /repo/modules/to/BYTE.txt:1-256 -/
def byteTo : Rules (List Nat) (List (List Nat)) := (List.range 256).map fun b => ([[3, b]], [[b]])

/-- The 22 digits `0`, …, `9`, `a`, `A`, …, `f`, `F` with their values, in the order of /repo/modules/from/HEX.txt:1-22. -/
def hexDigits : List (Nat × Nat) :=
  ((List.range 10).map fun v => (0x30 + v, v)) ++ (List.range 6).flatMap fun v => [(0x61 + v, 10 + v), (0x41 + v, 10 + v)]

/-- /repo/modules/from/HEX.txt:1-484; the order of the lines, whose patterns are all different, is simplified. -/
def hexFrom : Rules Nat (List (List Nat)) := hexDigits.flatMap fun x => hexDigits.map fun y => ([x.1, y.1], [[3, 16 * x.2 + y.2]])

/-- A capital digit. -/
def capital (v : Nat) : Nat := if v < 10 then 0x30 + v else 0x37 + v

/-- /repo/modules/to/HEX.txt:1-256 -/
def hexTo : Rules (List Nat) (List (List Nat)) := (List.range 256).map fun b => ([[3, b]], [[capital (b / 16), capital (b % 16)]])

end Verif.Bytes
