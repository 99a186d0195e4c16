import Verif.Model.MkTable
/-
The notation of a rule file: what a line of text denotes.
-/
namespace Verif.Spec.Table
open Verif.MkTable (Rule)

/-- A hexadecimal digit and its value. -/
inductive Digit : Nat → Nat → Prop
  | dec (n : Nat) (h : n < 10) : Digit (0x30 + n) n
  | lower (n : Nat) (h : n < 6) : Digit (0x61 + n) (10 + n)
  | upper (n : Nat) (h : n < 6) : Digit (0x41 + n) (10 + n)

/-- Text of a pattern: bytes by two digits, `,` for the border between data, `*` for anything. -/
inductive PatternText : List Nat → List (Nat × Nat) → Prop
  | nil : PatternText [] []
  | byte {a b h l t p} : Digit a h → Digit b l → PatternText t p → PatternText (a :: b :: t) ((16 * h + l, 16 * h + l) :: p)
  | border {t p} : PatternText t p → PatternText (0x2C :: t) ((256, 256) :: p)
  | any {t p} : PatternText t p → PatternText (0x2A :: t) ((0, 256) :: p)

/-- Text of data: bytes by two digits, `,` between data. -/
inductive DataText : List Nat → List Nat → Prop
  | nil : DataText [] []
  | byte {a b h l t d} : Digit a h → Digit b l → DataText t d → DataText (a :: b :: t) ((16 * h + l) :: d)
  | comma {t d} : DataText t d → DataText (0x2C :: t) (256 :: d)

/-- Blanks. -/
def Blank (s : List Nat) : Prop := ∀ c ∈ s, c = 9 ∨ c = 0x20

/-- What may follow the data: a blank, a comment or a carriage return, then anything within the line. -/
def Tail (s : List Nat) : Prop := 10 ∉ s ∧ (s = [] ∨ ∃ c cs, s = c :: cs ∧ (c = 9 ∨ c = 0x20 ∨ c = 0x23 ∨ c = 13))

/-- A line of a rule file (without its newline) and the rule it denotes: `!` for any case, the pattern, blanks, `?` for a callback,
the data. -/
inductive LineText : List Nat → Rule → Prop
  | mk {ci cb : Bool} {f p blanks t d tail} : PatternText f p → f ≠ [] → Blank blanks → blanks ≠ [] → DataText t d → (t ≠ [] ∨ cb = true) → Tail tail →
      LineText ((if ci then [0x21] else []) ++ f ++ blanks ++ (if cb then [0x3F] else []) ++ t ++ tail) { ci := ci, pat := p, cb := cb, dat := d }

/-- The text of a file: lines and comments, each shorter than 1023 characters and ended by a newline. -/
inductive FileText : List Nat → List Rule → Prop
  | nil : FileText [] []
  | rule {l r s rs} : LineText l r → l.length < 1023 → FileText s rs → FileText (l ++ 10 :: s) (r :: rs)
  | comment {l s rs} : 10 ∉ l → l.length < 1022 → FileText s rs → FileText (0x23 :: l ++ 10 :: s) rs

end Verif.Spec.Table
