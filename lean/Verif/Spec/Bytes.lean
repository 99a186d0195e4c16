import Verif.Spec.Tokens
/-
Bytes as pairs of hexadecimal digits.
-/
namespace Verif.Spec

/-- The value of a hexadecimal digit. -/
def hexValue (c : Nat) : Option Nat :=
  if '0'.toNat ≤ c ∧ c ≤ '9'.toNat then some (c - '0'.toNat)
  else if 'A'.toNat ≤ c ∧ c ≤ 'F'.toNat then some (c - 'A'.toNat + 10)
  else if 'a'.toNat ≤ c ∧ c ≤ 'f'.toNat then some (c - 'a'.toNat + 10)
  else none

/-- A text of pairs of digits, and the bytes they stand for. -/
inductive HexPairs : List Nat → List Nat → Prop
  | nil : HexPairs [] []
  | cons {c d v w : Nat} {s bs : List Nat} : hexValue c = some v → hexValue d = some w → HexPairs s bs → HexPairs (c :: d :: s) ((16 * v + w) :: bs)

/-- No small letters. -/
def Capitals (s : List Nat) : Prop := ∀ c ∈ s, c < 'a'.toNat

end Verif.Spec
