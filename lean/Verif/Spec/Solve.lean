/-
What looking up a name in a table of aliases comes to, independent of the engine.
-/
namespace Verif.Spec

/-- `Resolves T s t`: `s` falls into names of `T`, each time the longest name the rest of `s` begins with, and `t` is
the sequence of their definitions. -/
inductive Resolves {α : Type} (T : List (List α × List α)) : List α → List α → Prop
  | nil : Resolves T [] []
  | cons {a d s t : List α} : (a, d) ∈ T → a ≠ [] → (∀ r ∈ T, r.1 <+: a ++ s → r.1.length ≤ a.length) →
      Resolves T s t → Resolves T (a ++ s) (d ++ t)

/-- The ASCII characters among some bytes (NUL is none). -/
def asciiPart (s : List Nat) : List Nat := s.filter fun b => decide (1 ≤ b ∧ b < 128)

/-- The bytes in upper case. -/
def upperBytes (s : List Nat) : List Nat := s.map fun b => if 97 ≤ b ∧ b ≤ 122 then b - 32 else b

end Verif.Spec
