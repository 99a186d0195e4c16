import Verif.Model.Conv
import Verif.Spec.Util
/-
What a conversion string means to a user: a list of phases, each a list of (codec name, arguments).
-/
namespace Verif.Spec
open Verif.Conv

/-- Codec names and arguments of one phase; no arguments and empty arguments are the same. -/
def viewPhase (p : PhaseD) : List (Str × Str) := p.codecs.map fun c => (c.desc, c.argv.getD [])

/-- What the API's parser sees in a string. -/
def meaning (s : Str) : Option (List (List (Str × Str))) := (unpack s).map fun ps => ps.map viewPhase

/-- Insert `x` before position `i`. -/
def insertAt {α : Type} (l : List α) (i : Nat) (x : α) : List α := l.take i ++ [x] ++ l.drop i

/-- Replace position `i` by the list `xs`. -/
def spliceAt {α : Type} (l : List α) (i : Nat) (xs : List α) : List α := l.take i ++ xs ++ l.drop (i + 1)
end Verif.Spec
