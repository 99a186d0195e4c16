import Verif.Spec.Proc
/-
Mixed single- and double-byte encodings with shift codes: 0E switches to double-byte data, 0F back.
-/
namespace Verif.Spec

/-- Codes of one byte are sent in single-byte state, longer ones in double-byte state (`dbl`); the text ends in single-byte
state. -/
def shifted : (dbl : Bool) → List Datum → List Datum
  | false, [] => []
  | true, [] => [[0x0F]]
  | false, c :: cs => if 1 < c.length then [0x0E] :: c :: shifted true cs else c :: shifted false cs
  | true, c :: cs => if 1 < c.length then c :: shifted true cs else [0x0F] :: c :: shifted false cs

/-- Reading shifted text: `none` where a double-byte code is cut off. -/
def unshift : (dbl : Bool) → List Nat → Option (List Datum)
  | _, [] => some []
  | dbl, b :: bs =>
    if b = 0x0E then unshift true bs
    else if b = 0x0F then unshift false bs
    else match dbl, bs with
      | false, bs => (unshift false bs).map ([b] :: ·)
      | true, [] => none
      | true, c :: bs => (unshift true bs).map ([b, c] :: ·)

/-- A shift code, the first of them `next` and then in turn, the last one being 0F. -/
def alternating : (next : Nat) → List Nat → Prop
  | n, [] => n = 0x0E
  | n, b :: bs => b = n ∧ alternating (if n = 0x0E then 0x0F else 0x0E) bs

/-- The shift codes in a text of data. -/
def shiftCodes (ds : List Datum) : List Nat :=
  ds.filterMap fun d => if d = [0x0E] ∨ d = [0x0F] then d.head? else none

/-- A code of one or two bytes that cannot be mistaken for a shift code. -/
def DbcsCode (c : Datum) : Prop :=
  (∃ b, c = [b] ∧ b ≠ 0x0E ∧ b ≠ 0x0F) ∨ (∃ a b, c = [a, b] ∧ a ≠ 0x0E ∧ a ≠ 0x0F)

/-- The codes of a text: all data have one. -/
def codesOf (T : Rules Nat Datum) : List Datum → Option (List Datum)
  | [] => some []
  | d :: ds =>
    match lookup T d, codesOf T ds with
    | some c, some cs => some (c :: cs)
    | _, _ => none

end Verif.Spec
