import Verif.Model.Hash
/-
What a user means by "the instance hash is a map".
-/
namespace Verif.Spec
open Verif.Hash (Op)

/-- Abstract map from keys to pointers. -/
abbrev HashMap := Str → Option Nat

/-- Point update. -/
def HashMap.upd (m : HashMap) (k : Str) (v : Option Nat) : HashMap := fun x => if x = k then v else m x

/-- Effect and result of one operation on the abstract map (NULL = 0 for a missing key). -/
def HashMap.step (m : HashMap) : Op → HashMap × Nat
  | .set k v => (m.upd k (some v), 0)
  | .get k => (m, (m k).getD 0)
  | .has k => (m, if (m k).isSome then 1 else 0)
  | .del k => (m.upd k none, 0)

/-- Results of a history on the abstract map. -/
def HashMap.results (m : HashMap) : List Op → List Nat
  | [] => []
  | o :: os => (m.step o).2 :: results (m.step o).1 os

/-- The key used last (set, found by get or by has), forgotten after a deletion. -/
def HashMap.last (m : HashMap) (l : Option Str) : Op → Option Str
  | .set k _ => some k
  | .get k => if (m k).isSome then some k else l
  | .has k => if (m k).isSome then some k else l
  | .del k => if (m k).isSome then none else l

/-- Histories in which every `get` and `del` of a present key directly addresses the key used last. -/
def HashMap.Polite (m : HashMap) (l : Option Str) : List Op → Prop
  | [] => True
  | o :: os =>
    (match o with
     | .get k => m k = none ∨ l = some k
     | .del k => m k = none ∨ l = some k
     | _ => True) ∧ Polite (m.step o).1 (m.last l o) os
end Verif.Spec
