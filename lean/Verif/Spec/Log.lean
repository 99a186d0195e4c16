import Verif.Spec.Escape
import Verif.Spec.Handler
/-
Specification of the logs.
-/
namespace Verif.Spec

/-- A byte as two hexadecimal digits. -/
def byteDigits (b : Nat) : List Nat := ((Nat.toDigits 16 (256 + b)).drop 1).map fun c => c.toUpper.toNat

/-- The line of a datum: two digits for every byte, then the note, then a newline. -/
def logLine (note : List Nat) (d : Datum) : List Nat := d.flatMap byteDigits ++ note ++ [10]

/-- The note on a datum: nothing, or which of the two flags it has. -/
def flagNotes : List (List Nat) := ["", " ( FREE )", " ( MARK )", " ( FREE MARK )"].map ascii

/-- `text` is a log of the data: a line for each of them in order. -/
inductive LogOf : List Nat → List Datum → Prop
  | nil : LogOf [] []
  | cons {note rest : List Nat} {d : Datum} {ds : List Datum} : note ∈ flagNotes → LogOf rest ds → LogOf (logLine note d ++ rest) (d :: ds)

end Verif.Spec
