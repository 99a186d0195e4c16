import Verif.Spec.Tokens

/-
Conditions on a chain of phases and its input under which the chain's result is `pipeline`.
-/

namespace Verif.Spec

/-- An encoder either can encode everything or its last rule set has only one-symbol patterns (all
tables under /repo/modules/to are of the latter kind). -/
def EncodeOk : Phase → List Datum → Prop
  | .encode Rs, ds => misses (tokens Rs (nonEmpty ds)) = 0 ∨ ∀ r ∈ Rs.getLast?.getD [], r.1.length ≤ 1
  | _, _ => True

/-- Phases that are not the first: nothing undecodable. -/
def TameRest : List Phase → List Datum → Prop
  | [], _ => True
  | p :: ps, ds => p.inErrors ds = 0 ∧ EncodeOk p ds ∧ TameRest ps (p.out ds)

/-- The first phase: nothing undecodable, or the input comes in one piece. -/
def Tame : List Phase → List Datum → Prop
  | [], _ => True
  | p :: ps, ds => (p.inErrors ds = 0 ∨ ds.length ≤ 1) ∧ EncodeOk p ds ∧ TameRest ps (p.out ds)

end Verif.Spec
