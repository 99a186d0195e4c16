import Verif.Spec.Charset
/-
Texts that switch between character sets by escape sequences.
-/
namespace Verif.Spec

/-- The character sets a text can switch to. -/
inductive JisSet
  | ascii | x0201 | x0208 | x0212
  deriving DecidableEq, Repr

/-- The escape sequences that switch to a set: ESC ( B; ESC ( J and ESC ( I; ESC $ @ and ESC $ B; ESC ( $ D. -/
def JisSet.escapes : JisSet → List (List Nat)
  | .ascii => [[0x1B, 0x28, 0x42]]
  | .x0201 => [[0x1B, 0x28, 0x4A], [0x1B, 0x28, 0x49]]
  | .x0208 => [[0x1B, 0x24, 0x40], [0x1B, 0x24, 0x42]]
  | .x0212 => [[0x1B, 0x28, 0x24, 0x44]]

/-- The tables of the three sets besides ASCII. -/
structure JisTables where
  x0201 : Charset
  x0208 : Charset
  x0212 : Charset

/-- What a code stands for after a switch to `m`: what the table of the set says; otherwise, ASCII but for ESC.  Among the bytes 21 .. 7E the two-byte
sets have no codes of one byte. -/
def JisTables.char (T : JisTables) (m : JisSet) (c : Nat) : Option Nat :=
  let ascii := if 1 ≤ c ∧ c < 0x80 ∧ c ≠ 0x1B then some c else none
  let control := if c ≤ 0x20 ∨ c = 0x7F then ascii else none
  match m with
  | .ascii => ascii
  | .x0201 => match T.x0201.reads.find c with | some cp => some cp | none => ascii
  | .x0208 => match T.x0208.reads.find c with | some cp => some cp | none => control
  | .x0212 => match T.x0212.reads.find c with | some cp => some cp | none => control

/-- A piece of text. -/
inductive JisItem
  /-- the escape sequence `e`, for a switch to `m` -/
  | switch (m : JisSet) (e : List Nat)
  | code (c : Nat)

def JisItem.bytes : JisItem → List Nat
  | .switch _ e => e
  | .code c => beBytes c

/-- The characters of a text that begins in the set `m`; `none` if it is malformed. -/
def JisTables.chars (T : JisTables) : JisSet → List JisItem → Option (List Nat)
  | _, [] => some []
  | _, .switch m' e :: is => if e ∈ m'.escapes then T.chars m' is else none
  | m, .code c :: is => match T.char m c with
    | some cp => (T.chars m is).map (cp :: ·)
    | none => none

end Verif.Spec
