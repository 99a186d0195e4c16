import Verif.Model.Str
/-
Specifications for arguments and indices.
-/
namespace Verif.Spec

/-- `c` is a hexadecimal digit (either case) denoting `n`. -/
def HexDigit (c : Char) (n : Nat) : Prop :=
  "0123456789ABCDEF".toList[n]? = some c ∨ "0123456789abcdef".toList[n]? = some c

/-- The text consists of two hexadecimal digits per byte and denotes these bytes. -/
inductive HexText : Str → List Nat → Prop
  | nil : HexText [] []
  | cons {a b : Char} {x y : Nat} {s : Str} {bs : List Nat} :
      HexDigit a x → HexDigit b y → HexText s bs → HexText (a :: b :: s) ((16 * x + y) :: bs)

/-- Texts and data correspond one to one. -/
inductive HexTexts : List Str → List (List Nat) → Prop
  | nil : HexTexts [] []
  | cons {t : Str} {bs : List Nat} {ts : List Str} {bss : List (List Nat)} :
      HexText t bs → HexTexts ts bss → HexTexts (t :: ts) (bs :: bss)

/-- Texts joined by a separator. -/
def join (d : Char) : List Str → Str
  | [] => []
  | [t] => t
  | t :: ts => t ++ [d] ++ join d ts

/-- Python's meaning of index `n` in a sequence of length `len`: positions from the front, or with a
negative index from the back; `none` = IndexError. -/
def pyIndex (len : Nat) (n : Int) : Option Nat :=
  if 0 ≤ n then (if n < len then some n.toNat else none)
  else if -(len : Int) ≤ n then some (len + n).toNat else none

/-- How an argument list is written. -/
def showArg : Str × Option Str → Str
  | (k, none) => k
  | (k, some v) => k ++ ['='] ++ v
end Verif.Spec
