import Verif.Spec.Tokens
/-
The tables /repo/modules/from/ASCII.txt and /repo/modules/to/ASCII.txt, line by line.
-/
namespace Verif.Ascii

/-- /repo/modules/from/ASCII.txt:1-127 : `01 0101` … `7F 017F`; there is no line for `00`. -/
def fromRules : Verif.Spec.Rules Nat (List (List Nat)) :=
  (List.range 127).map fun k => ([k + 1], [[1, k + 1]])

/-- /repo/modules/to/ASCII.txt:3-130 : the lines of from/ASCII.txt the other way round, and `0102DC 7E`. -/
def toRules : Verif.Spec.Rules (List Nat) (List (List Nat)) :=
  ((List.range 127).map fun k => ([[1, k + 1]], [[k + 1]])) ++ [([[1, 2, 0xDC]], [[0x7E]])]

end Verif.Ascii
