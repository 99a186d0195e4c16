import Verif.Model.Big5Esc
import Verif.Spec.Charset
/-
Texts in a character set like Big5 with a second backslash behind characters whose last byte is one.
-/
namespace Verif.Spec.Big5Esc
open Verif.Big5Esc (rows)

/-- How a character is written: with a backslash behind it if it is in the table, else as in the set. -/
def written (x : Charset) (cp : Nat) : Option (List Nat) :=
  match rows.find? fun r => Nat.beq r.2 cp with
  | some r => some [r.1, 0x5C, 0x5C]
  | none => (x.code cp).map beBytes

/-- A text and the characters it stands for.  A code of the set stands for its character if it is not followed by a backslash that belongs to it. -/
inductive Text (x : Charset) : List Nat → List Nat → Prop
  | nil : Text x [] []
  | escaped {r : Nat × Nat} {s cps : List Nat} : r ∈ rows → Text x s cps → Text x (r.1 :: 0x5C :: 0x5C :: s) (r.2 :: cps)
  | code {c cp : Nat} {s cps : List Nat} : x.char c = some cp → (∀ r ∈ rows, ¬ [r.1, 0x5C, 0x5C] <+: beBytes c ++ s) → Text x s cps → Text x (beBytes c ++ s) (cp :: cps)

end Verif.Spec.Big5Esc
