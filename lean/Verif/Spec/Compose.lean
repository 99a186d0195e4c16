import Verif.Spec.Ordering
/-
Canonical composition as in the Unicode standard (D115, D117): from left to right, a character that is not blocked from the
last starter before it and has a composite with it is removed, and the starter becomes the composite.
-/
namespace Verif.Spec

/-- A starter: a character of combining class zero.  (Data that are not characters are not starters.) -/
def isStarter (d : Datum) : Prop := (char? d).isSome ∧ combining d = 0

instance (d : Datum) : Decidable (isStarter d) := by unfold isStarter; infer_instance

/-- `c` is not blocked from the starter before `p`: everything in between has a class below that of `c`. -/
def unblocked (p : List Datum) (c : Datum) : Prop := ∀ b ∈ p, combining b < combining c

instance (p : List Datum) (c : Datum) : Decidable (unblocked p c) := by unfold unblocked; infer_instance

/-- The composition algorithm.  `open_` is the last starter and what follows it so far, if there is a starter that can still
combine; `comb s c` is the composite of `s` and `c`. -/
def composeFrom (comb : Datum → Datum → Option Datum) (open_ : Option (Datum × List Datum)) : List Datum → List Datum
  | [] => match open_ with
    | none => []
    | some (s, p) => s :: p
  | c :: ds =>
    if (char? c).isSome then
      match open_ with
      | none => if isStarter c then composeFrom comb (some (c, [])) ds else c :: composeFrom comb none ds
      | some (s, p) =>
        match (if unblocked p c then comb s c else none) with
        | some x => composeFrom comb (some (x, p)) ds
        | none =>
          if isStarter c then s :: p ++ composeFrom comb (some (c, [])) ds
          else composeFrom comb (some (s, p ++ [c])) ds
    else
      (match open_ with
       | none => []
       | some (s, p) => s :: p) ++ c :: composeFrom comb none ds

/-- Canonical composition. -/
def compose (comb : Datum → Datum → Option Datum) (ds : List Datum) : List Datum := composeFrom comb none ds

/-- In canonical order: a character of non-zero class is never preceded by one of a greater class. -/
def InOrder : List Datum → Prop
  | [] => True
  | [_] => True
  | a :: b :: ds => (combining b = 0 ∨ combining a ≤ combining b) ∧ InOrder (b :: ds)

/-- Any number of composition steps, without regard to blocking: a starter and a character separated only by characters that
are not starters are replaced by their composite, in the place of the starter. -/
inductive Combines (comb : Datum → Datum → Option Datum) : List Datum → List Datum → Prop
  | refl (ds) : Combines comb ds ds
  | step {pre s p c post x out} : isStarter s → (∀ b ∈ p, combining b ≠ 0) → (char? c).isSome → comb s c = some x →
      Combines comb (pre ++ x :: p ++ post) out → Combines comb (pre ++ s :: p ++ c :: post) out

end Verif.Spec
