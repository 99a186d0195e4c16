import Verif.Spec.Tokens
import Verif.Spec.Unicode
/-
Character sets given by a pair of tables, one for reading, one for writing.
-/
namespace Verif.Spec

/-- A list of runs `(k, [v, w, ..])`: k goes to v, k+1 to w, .. -/
abbrev Chart := List (Nat × List Nat)

/-- The 16-bit digits of a number, the first not 0, in front of `l`. -/
def digits16 : Nat → Nat → List Nat → List Nat
  | 0, _, l => l
  | k + 1, n, l => bif Nat.beq n 0 then l else digits16 k (n / 0x10000) (n % 0x10000 :: l)

/-- Runs of up to 64 numbers below 0x10000, written as the digits of one number. -/
def Chart.wide (t : List (Nat × Nat)) : Chart := t.map fun r => (r.1, digits16 64 r.2 [])

/-- The pairs of one run. -/
def Chart.run : Nat → List Nat → List (Nat × Nat)
  | _, [] => []
  | k, v :: vs => (k, v) :: Chart.run (k + 1) vs

/-- The pairs. -/
def Chart.pairs (t : Chart) : List (Nat × Nat) := t.flatMap fun r => Chart.run r.1 r.2

/-- What the first pair for `n` says. -/
def Chart.find (t : Chart) (n : Nat) : Option Nat := (t.pairs.find? fun e => Nat.beq e.1 n).map Prod.snd

/-- A character set besides ASCII.  The code of a character is a number; its bytes are the number in base 256, first byte first. -/
structure Charset where
  /-- code, character: lines `code 01character` of a file for reading -/
  reads : Chart
  /-- character, code: lines `01character code` of a file for writing -/
  writes : Chart
  /-- character, code: lines `0100character code`.  (No decoder makes such a datum: there is no 00 before the number of a character.) -/
  odd : List (Nat × Nat) := []

/-- What a code stands for: ASCII (without NUL), or what the table for reading says. -/
def Charset.char (x : Charset) (c : Nat) : Option Nat := if 1 ≤ c ∧ c < 0x80 then some c else x.reads.find c

/-- How a character is written: what the table for writing says, otherwise what /repo/modules/to/ASCII.txt says: ASCII, and U+02DC as `~`. -/
def Charset.code (x : Charset) (cp : Nat) : Option Nat :=
  match x.writes.find cp with
  | some c => some c
  | none => if 1 ≤ cp ∧ cp < 0x80 then some cp else if cp = 0x2DC then some 0x7E else none

/-- The bytes a text of codes consists of. -/
def codeBytes (cs : List Nat) : List Nat := cs.flatMap beBytes

/-- Of the codes other than `ex`, each is what its character is written as. -/
def Charset.Exact (x : Charset) (ex : List Nat) : Prop := ∀ c cp, c ∉ ex → x.char c = some cp → x.code cp = some c

/-- Every character that can be read is written as a code that is read as the same character. -/
def Charset.Keeps (x : Charset) : Prop := ∀ c cp, x.char c = some cp → ∃ c', x.code cp = some c' ∧ x.char c' = some cp

/-- The lines of the two files as rules. -/
def Charset.fromRules (x : Charset) : Rules Nat (List (List Nat)) := x.reads.pairs.map fun r => (beBytes r.1, [uniDatum r.2])

def Charset.toRules (x : Charset) : Rules (List Nat) (List (List Nat)) :=
  (x.writes.pairs.map fun r => ([uniDatum r.1], [beBytes r.2])) ++ x.odd.map fun r => ([[1, 0, r.1]], [beBytes r.2])

/-- /repo/modules/from/FALLBACK-UNICODE.txt:1-256 : every byte as a character. -/
def fallbackRules : Rules Nat (List (List Nat)) := (List.range 256).map fun b => ([b], [[1, b]])

end Verif.Spec
