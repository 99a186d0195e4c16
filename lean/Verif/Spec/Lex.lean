import Verif.Spec.Tokens
import Verif.Spec.Unicode
import Verif.Spec.Handler
/-
Reading with several tables: at every position the first one with a pattern for a beginning of the rest takes it.
-/
namespace Verif.Spec

/-- The bytes are read as these characters by the tables `Rs 0`, …, `Rs n`. -/
inductive Lexed (Rs : Nat → Rules Nat (List Datum)) (n : Nat) : List Nat → List Nat → Prop
  | nil : Lexed Rs n [] []
  | cons {j : Nat} {q s : List Nat} {cp : Nat} {cps : List Nat} : j ≤ n → q ≠ [] → lookup (Rs j) q = some [uniDatum cp] →
      (∀ i, i < j → ∀ r ∈ Rs i, ¬ r.1 <+: q ++ s) → Lexed Rs n s cps → Lexed Rs n (q ++ s) (cp :: cps)

/-- The bytes are cut into pieces by the tables `Rs 0`, …, `Rs n`; each piece stands for a datum. -/
inductive Pieces (Rs : Nat → Rules Nat (List Datum)) (n : Nat) : List Nat → List (List Nat × Datum) → Prop
  | nil : Pieces Rs n [] []
  | cons {j : Nat} {q s : List Nat} {d : Datum} {l : List (List Nat × Datum)} : j ≤ n → q ≠ [] → lookup (Rs j) q = some [d] →
      (∀ i, i < j → ∀ r ∈ Rs i, ¬ r.1 <+: q ++ s) → Pieces Rs n s l → Pieces Rs n (q ++ s) ((q, d) :: l)

end Verif.Spec
