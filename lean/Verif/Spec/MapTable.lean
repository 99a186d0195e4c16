import Verif.Spec.Unicode
/-
Tables that replace character by character.
-/
namespace Verif.Spec

/-- Rules `(k, [v, v..])`: the character k is replaced by the characters v.  They are listed by the upper bytes of k. -/
abbrev Pages := List (Nat × List (Nat × List Nat))

/-- The rules in order. -/
def Pages.rules (t : Pages) : List (Nat × List Nat) := t.flatMap Prod.snd

/-- What the first rule for `n` says. -/
def Pages.find (t : Pages) (n : Nat) : Option (List Nat) := (t.rules.find? fun e => Nat.beq e.1 n).map Prod.snd

/-- What becomes of a text. -/
def Pages.apply (t : Pages) (cps : List Nat) : List Nat := cps.flatMap fun n => (t.find n).getD [n]

end Verif.Spec
