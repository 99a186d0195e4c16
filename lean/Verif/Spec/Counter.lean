import Verif.Model.Str
/-
What a user means by "counters are a case-insensitive map": a function from names to numbers, where
names are compared after upper-casing ASCII letters.
-/
namespace Verif.Spec

/-- Canonical form of a name. -/
def canon (k : Str) : Str := k.map Char.toUpper

/-- Abstract counters: canonical name to value. -/
abbrev Counters := Str → Nat

/-- What users do, by name. -/
inductive CounterOp
  | get (name : Str) | set (name : Str) (v : Nat) | reset (name : Str) | resetAll

/-- Effect on the abstract map. -/
def Counters.step (m : Counters) : CounterOp → Counters
  | .get _ => m
  | .set k v => fun n => if n = canon k then v else m n
  | .reset k => fun n => if n = canon k then 0 else m n
  | .resetAll => fun _ => 0

end Verif.Spec
