import Verif.Spec.Handler
import Verif.Spec.Unicode
/-
Specification of score files: one byte for every code point; a code point behind the end of the file counts as 0.
-/
namespace Verif.Spec

/-- The score of a code point in a score file. -/
def scoreOf (file : List Nat) (cp : Nat) : Nat := file.getD cp 0

/-- The code points of the characters among the data: of the data that begin with 01, the number in the bytes that follow (32 bits). -/
def charCodes (ds : List Datum) : List Nat :=
  ds.filterMap fun d => match d with
    | 1 :: bs => some ((bs.foldl (fun n b => n * 256 + b) 0) % 2 ^ 32)
    | _ => none

/-- A number as four bytes, most significant first. -/
def fourBytes (n : Nat) : List Nat := [n / 2 ^ 24 % 256, n / 2 ^ 16 % 256, n / 2 ^ 8 % 256, n % 256]

/-- The code points met that had no score, each once, in the order in which they were first met. -/
def newCodes (file codes : List Nat) : List Nat := (codes.filter fun cp => scoreOf file cp == 0).eraseDups

end Verif.Spec
