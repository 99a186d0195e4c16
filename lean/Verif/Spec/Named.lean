import Verif.Model.Named
/-
What named character references mean.
-/
namespace Verif.Spec.Named
open Verif.Named (entities reference)
open Verif.Solve (lit)

/-- The small letter of a letter. -/
def small (c : Nat) : Nat := if 0x41 ≤ c ∧ c ≤ 0x5A then c + 32 else c

/-- `&n;` stands for the character: `n` is the name of an entity; or an entity's name written in small letters gives `n` up to case, and no other name does. -/
def Means (n : List Nat) (cp : Nat) : Prop :=
  ∃ e ∈ entities, e.2 = cp ∧ (n = lit e.1 ∨ n.map small = lit e.1 ∧ ∀ e' ∈ entities, (lit e'.1).map small = lit e.1 → e' = e)

/-- A text and the characters it stands for: ASCII characters stand for themselves, references for their characters; `&` for itself if no reference with the letters of
an entity's name begins there. -/
inductive Text : List Nat → List Nat → Prop
  | nil : Text [] []
  | plain {c : Nat} {s cps : List Nat} : 1 ≤ c → c < 0x80 → c ≠ 38 → Text s cps → Text (c :: s) (c :: cps)
  | ref {n s cps : List Nat} {cp : Nat} : Means n cp → Text s cps → Text (reference n ++ s) (cp :: cps)
  | amp {s cps : List Nat} : (∀ n, reference n <+: 38 :: s → ∀ e ∈ entities, n.map small ≠ (lit e.1).map small) → Text s cps → Text (38 :: s) (38 :: cps)

/-- How a character is written: as a reference if it has a name, else itself if it is ASCII. -/
def written (cp : Nat) : Option (List Nat) :=
  match entities.find? fun e => e.2 == cp with
  | some e => some (reference (lit e.1))
  | none => if 1 ≤ cp ∧ cp < 0x80 then some [cp] else none

end Verif.Spec.Named
