import Verif.Model.Inter
/-
The normalisation codecs of /repo/modules/inter that work datum by datum (table `* ?`).  Same conventions as
Model/Inter.lean.
-/
namespace Verif.Inter
open Verif.Spec (Handler Lens Datum)

/-- The loop `while(ucs && stack_len<sizeof(stack))` and the copy in reverse order,
/repo/modules/inter/_NF-HANGUL-COMPOSITION.c:148-164, /repo/modules/inter/_NF-HANGUL-DECOMPOSITION.c:62-79.  A 32-bit
number needs at most four of the eight bytes. -/
def stackBytes (n : Nat) : List Nat := if n = 0 then [] else stackBytes (n / 256) ++ [n % 256]
  termination_by n
  decreasing_by omega

/-- The unicode datum written by that code. -/
def uniOf (u : Nat) : Datum := 1 :: stackBytes u

/-- `LIndex = ucs - LBase; 0 <= LIndex && LIndex < LCount` and the like: 32-bit subtraction, read as an int. -/
def index (u base count : Nat) : Option Nat := if base ≤ u ∧ u - base < count then some (u - base) else none

/-- Private data of the composition: /repo/modules/inter/_NF-HANGUL-COMPOSITION.c:13-16 -/
structure Hangul where
  status : Nat
  pending : Nat
  deriving DecidableEq, Repr

/-- `cbflush`, /repo/modules/inter/_NF-HANGUL-COMPOSITION.c:133-168 -/
def Hangul.flush (t : Hangul) : Hangul × List Datum :=
  if t.status = 0 then (t, []) else ({ t with status := 0 }, [uniOf t.pending])

/-- After `cbflush(ins)`: a leading consonant starts anew, anything else is passed on,
/repo/modules/inter/_NF-HANGUL-COMPOSITION.c:64-75, 78-95 and 103-115. -/
def Hangul.restart (t : Hangul) (u : Nat) (d : Datum) : Option (Hangul × List Datum × Bool) :=
  match index u 0x1100 19 with
  | some _ => some (⟨1, u⟩, t.flush.2, true)
  | none => some (t.flush.1, t.flush.2 ++ [d], false)

/-- /repo/modules/inter/_NF-HANGUL-COMPOSITION.c:28-126 -/
def hangulCompose : Handler Hangul where
  act := fun t d =>
    match d with
    | 1 :: p =>
      let u := Range.ucs p
      if t.status = 0 then
        match index u 0x1100 19 with
        | some _ => some (⟨1, u⟩, [], true)
        | none => none
      else if t.status = 1 then
        match index u 0x1161 21 with
        | some v =>
          let s := 0xAC00 + ((t.pending - 0x1100) * 21 + v) * 28
          if s - 0xAC00 < 19 * 21 * 28 ∧ (s - 0xAC00) % 28 = 0 then some (⟨2, s⟩, [], true)
          else (Hangul.mk t.status s).restart u d
        | none => t.restart u d
      else
        match index u 0x11A7 28 with
        | some i =>
          if 0 < i then
            let t' : Hangul := { t with pending := t.pending + i }
            some (t'.flush.1, t'.flush.2, false)
          else t.restart u d
        | none => t.restart u d
    | _ => some (t.flush.1, t.flush.2 ++ [d], false)
  flush := Hangul.flush

/-- `decomposeHangul`, /repo/modules/inter/_NF-HANGUL-DECOMPOSITION.c:42-81.  The recursive calls get jamo, which are
not syllables: they write one datum each. -/
def decomposeHangul (u : Nat) : List Datum :=
  match index u 0xAC00 (19 * 21 * 28) with
  | some s =>
    let l := 0x1100 + s / (21 * 28)
    let v := 0x1161 + s % (21 * 28) / 28
    let t := 0x11A7 + s % 28
    uniOf l :: uniOf v :: (if t ≠ 0x11A7 then [uniOf t] else [])
  | none => [uniOf u]

/-- /repo/modules/inter/_NF-HANGUL-DECOMPOSITION.c:15-40.  Anything but unicode data is dropped. -/
def hangulDecompose : Handler Unit where
  act := fun t d =>
    match d with
    | 1 :: p =>
      match index (Range.ucs p) 0xAC00 (19 * 21 * 28) with
      | some _ => some (t, decomposeHangul (Range.ucs p), false)
      | none => some (t, [d], false)
    | _ => some (t, [], false)

/-- The combining class found by the search in /repo/modules/inter/_NF-ORDER.c:48-74; 0 if not found. -/
def ccc (d : Datum) : Int := (row Range.cccTable d).getD 0

/-- Insertion into the queue, /repo/modules/inter/_NF-ORDER.c:96-113: walk back from the tail over the entries of a
greater class.  The doubly linked list is a list of entries (class, datum), head first. -/
def enqueue (c : Int) (d : Datum) (q : List (Int × Datum)) : List (Int × Datum) :=
  (q.reverse.dropWhile fun p => decide (c < p.1)).reverse ++ (c, d) :: (q.reverse.takeWhile fun p => decide (c < p.1)).reverse

/-- /repo/modules/inter/_NF-ORDER.c:29-46 (`cbflush`) and 48-118 (`cbconv`).  There is no `cbinit`. -/
def order : Handler (List (Int × Datum)) where
  act := fun q d =>
    if ccc d = 0 then some ([], q.map Prod.snd ++ [d], false)
    else some (enqueue (ccc d) d q, [], true)
  flush := fun q => ([], q.map Prod.snd)

end Verif.Inter
