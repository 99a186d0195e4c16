import Verif.Spec.Unicode
/-
Reading bytes that need not be a text: characters are taken where they are found; where none begins, a byte is skipped.
-/
namespace Verif.Spec

/-- `bs` is a proper beginning of the encoding of a code point of `range`. -/
def Unfinished (enc : Nat → List Nat) (range : Nat → Prop) (bs : List Nat) : Prop := ∃ cp tl, range cp ∧ tl ≠ [] ∧ enc cp = bs ++ tl

/-- `bs` reads as the code points `cps` with `n` bytes skipped: at each place, the character that begins there is taken; if no character begins
there, nor is the rest the beginning of one, a byte is skipped. -/
inductive Mended (enc : Nat → List Nat) (valid range : Nat → Prop) : List Nat → List Nat → Nat → Prop
  | nil : Mended enc valid range [] [] 0
  | char {cp : Nat} {rest cps : List Nat} {n : Nat} : valid cp → Mended enc valid range rest cps n → Mended enc valid range (enc cp ++ rest) (cp :: cps) n
  | skip {b : Nat} {rest cps : List Nat} {n : Nat} : (∀ cp, valid cp → ¬enc cp <+: b :: rest) → ¬Unfinished enc range (b :: rest) →
      Mended enc valid range rest cps n → Mended enc valid range (b :: rest) cps (n + 1)

end Verif.Spec
