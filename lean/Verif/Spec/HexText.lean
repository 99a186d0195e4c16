import Verif.Spec.Proc
/-
Bytes written as pairs of hexadecimal digits.
-/
namespace Verif.Spec

/-- The value of a hexadecimal digit, in either case. -/
def digitValue (c : Nat) : Option Nat :=
  if 48 ≤ c ∧ c ≤ 57 then some (c - 48) else if 65 ≤ c ∧ c ≤ 70 then some (c - 55) else if 97 ≤ c ∧ c ≤ 102 then some (c - 87) else none

/-- Two values make a byte; a single one at the end counts as a byte of its own. -/
def pairUp : List Nat → List Nat
  | [] => []
  | [a] => [a]
  | a :: b :: r => (16 * a + b) :: pairUp r

/-- The values of all characters of a text, if they are all digits. -/
def digitValues : List Nat → Option (List Nat)
  | [] => some []
  | c :: cs =>
    match digitValue c, digitValues cs with
    | some v, some vs => some (v :: vs)
    | _, _ => none

/-- What a text of hexadecimal digits stands for: nothing, or one datum.  A text of one digit stands for nothing valid. -/
def hexDatum (t : List Nat) : Option (List Datum) :=
  match digitValues t with
  | none => none
  | some [] => some []
  | some [_] => none
  | some (a :: b :: r) => some [pairUp (a :: b :: r)]

end Verif.Spec
