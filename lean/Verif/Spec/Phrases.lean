import Verif.Spec.Tokens
/-
Tables that replace sequences of characters by sequences of characters.
-/
namespace Verif.Spec

/-- Rows: a sequence of characters and what replaces it. -/
abbrev Phrases := List (List Nat × List Nat)

/-- `u` is the text `s` with the rows of `t` replaced, from left to right, the longest row that is there first; what no row begins with stays. -/
inductive Swapped (t : Phrases) : List Nat → List Nat → Prop
  | nil : Swapped t [] []
  | row {p q s u : List Nat} : (p, q) ∈ t → (∀ r ∈ t, r.1 <+: p ++ s → r.1.length ≤ p.length) → Swapped t s u → Swapped t (p ++ s) (q ++ u)
  | char {c : Nat} {s u : List Nat} : (∀ r ∈ t, ¬ r.1 <+: c :: s) → Swapped t s u → Swapped t (c :: s) (c :: u)

/-- No replacement is empty, and no character of one occurs in a row to be replaced. -/
def Final (t : Phrases) : Prop := ∀ r ∈ t, r.2 ≠ [] ∧ ∀ x ∈ r.2, ∀ r' ∈ t, x ∉ r'.1

/-- No row begins another, every row is there the other way round, and only at its beginning has a row a character that one begins with. -/
structure Mirror (t : Phrases) : Prop where
  free : ∀ r ∈ t, ∀ r' ∈ t, r.1 <+: r'.1 → r.1 = r'.1
  back : ∀ r ∈ t, (r.2, r.1) ∈ t
  heads : ∀ r ∈ t, ∀ r' ∈ t, ∀ x ∈ r.1.tail, r'.1.head? ≠ some x

end Verif.Spec
