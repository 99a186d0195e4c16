import Verif.Spec.Charset
/-
Writing a character set with a second table that has replacements for characters the set lacks.
-/
namespace Verif.Spec

/-- How a character is written by `X,X-TRANS`: as in the set `x`; if the set has no code for it, as the table `t` says. -/
def translit (x t : Charset) (cp : Nat) : Option Nat :=
  match x.code cp with
  | some c => some c
  | none => t.writes.find cp

/-- The character that a reader of `x` sees in its place. -/
def stands (x t : Charset) (cp : Nat) : Option Nat := (translit x t cp).bind x.char

/-- The table `t` suits the set `x`. -/
structure Suits (x t : Charset) : Prop where
  /-- it has lines for characters that the set lacks -/
  new : ∀ cp c, t.writes.find cp = some c → x.code cp = none
  /-- and replaces them by characters of the set -/
  own : ∀ cp c, t.writes.find cp = some c → ∃ u, x.char c = some u ∧ x.code u = some c

end Verif.Spec
