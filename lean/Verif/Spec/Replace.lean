import Verif.Spec.Proc
/-
Replacing the occurrences of a pattern in a list of data, from left to right.
-/
namespace Verif.Spec

/-- `out` is `ds` with the occurrences of `pat`, found from left to right and not overlapping, replaced by `to`. -/
inductive Replaced (pat to : List Datum) : List Datum → List Datum → Prop
  | nil : Replaced pat to [] []
  | hit {ds out} : Replaced pat to ds out → Replaced pat to (pat ++ ds) (to ++ out)
  | miss {d ds out} : ¬ pat <+: d :: ds → Replaced pat to ds out → Replaced pat to (d :: ds) (d :: out)

/-- The same as a function. -/
def replaceAll (pat to : List Datum) (ds : List Datum) : List Datum :=
  match ds with
  | [] => []
  | d :: ds =>
    if pat ≠ [] ∧ pat <+: d :: ds then to ++ replaceAll pat to ((d :: ds).drop pat.length)
    else d :: replaceAll pat to ds
termination_by ds.length
decreasing_by
  · rename_i h
    have : 0 < pat.length := List.length_pos_iff.2 h.1
    simp only [List.length_drop, List.length_cons]; omega
  · simp

/-- The end of the input cannot be mistaken for the beginning of an occurrence, or the last datum of the pattern
is found nowhere else in it. -/
def ReplaceOk (pat : List Datum) (ds : List Datum) : Prop :=
  (∀ h : pat ≠ [], pat.getLast h ∉ pat.dropLast) ∨ ∀ k, 0 < k → k < pat.length → ¬ pat.take k <:+ ds

end Verif.Spec
