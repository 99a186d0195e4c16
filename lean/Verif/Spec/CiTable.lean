import Verif.Spec.MkTable
import Verif.Spec.Tokens
/-
A table file with ranges and rules marked `!`, as rules for single strings.
-/
namespace Verif.Spec.Table
open Verif.MkTable (Rule)

/-- All strings that fit the bounds. -/
def fitting (ci : Bool) : List (Nat × Nat) → List (List Nat)
  | [] => [[]]
  | b :: bs => ((List.range 257).filter (symbolFits ci b)).flatMap fun c => (fitting ci bs).map (c :: ·)

/-- The rule of every string that has one: the data of the rule in charge. -/
def expanded (rs : List Rule) : Rules Nat (List (List Nat)) :=
  (rs.flatMap fun r => fitting r.ci r.pat).filterMap fun q => (best rs q).map fun r => (q, datums r.dat)

end Verif.Spec.Table
