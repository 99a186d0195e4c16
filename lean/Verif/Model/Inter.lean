import Verif.Model.Callback
import Verif.Model.RangeTables
import Verif.Spec.Codec
/-
The callback codecs of /repo/modules/inter and the simple ones of /repo/modules/to that look at one datum at a time
(table `* ?`, e.g. /repo/modules/inter/COUNT.txt).  Each is a `Handler`: for a datum, `none` = DEADEND, otherwise
the new private data, the data appended, and whether the status is SUBMATCH (`true`) or NEXTPHASE (`false`).

Simplifications: counters (`size_t`) do not wrap; a counter shared by several codecs under one name appears as the
codec's own amount; `dup_data_rt` (which moves the payload) is the identity on payloads; the parsing of codec
arguments in `cbcreate` is not modelled, the parsed values are parameters.
-/
namespace Verif.Inter
open Verif.Spec (Handler Lens Datum)
open Verif.Engine (Codec anyByte)

variable {π σ : Type}

/-- A codec with `cbconv` only. -/
def plain (e : Lens π σ) (h : Handler σ) : Codec π := anyByte (h.on e).conv none

/-- A codec with `cbconv` and `cbflush`. -/
def flushing (e : Lens π σ) (h : Handler σ) : Codec π := anyByte (h.on e).conv (some (h.on e).cbflush)

/-- A filter given by the argument FOR, if any: `filter==NULL || cbfilter(curr)`. -/
abbrev Filter := Option (Datum → Bool)

/-- Does the filter let the datum through? -/
def admits (f : Filter) (d : Datum) : Bool := match f with | none => true | some g => g d

/-- /repo/modules/inter/COUNT.c:43-56; private data: the counter. -/
def count (f : Filter) : Handler Nat where
  act := fun c d => some (if admits f d then c + 1 else c, [d], false)

/-- Counters of WIDTH: /repo/modules/inter/WIDTH.c:7-11 -/
structure Widths where
  full : Nat
  half : Nat
  ambi : Nat
  deriving DecidableEq, Repr

/-- The `switch` of /repo/modules/inter/WIDTH.c:53-63 (FULL 2, HALF 1, AMBI -1) -/
def Widths.add (c : Widths) : Option Int → Widths
  | some 2 => { c with full := c.full + 1 }
  | some 1 => { c with half := c.half + 1 }
  | some (-1) => { c with ambi := c.ambi + 1 }
  | _ => c

/-- The value the binary search in a table leaves: `none` = not found.  A read outside the table (which does not
happen, see Props/Range.lean) counts as not found. -/
def row (t : List Range.Row) (d : Datum) : Option Int := (Range.lookup t d).getD none

/-- /repo/modules/inter/WIDTH.c:24-71 -/
def width : Handler Widths where
  act := fun c d => some (c.add (row Range.widthTable d), [d], false)

/-- /repo/modules/inter/PASS.c:54-83; private data: `passed`; `limit` 0 = no limit. -/
def pass (f : Filter) (limit : Int) : Handler Int where
  act := fun passed d =>
    if admits f d then
      if limit ≠ 0 then
        if passed < limit then some (passed + 1, [d], false) else none
      else some (passed, [d], false)
    else none

/-- /repo/modules/to/PASS.c:45-67 -/
def toPass (f : Filter) : Handler Unit where
  act := fun t d => if admits f d then some (t, [d], false) else none

/-- /repo/modules/inter/NULL.c:3-6, /repo/modules/to/NULL.c:3-6 -/
def null : Handler Unit where
  act := fun t _ => some (t, [], false)

/-- /repo/modules/inter/INSERT.c:64-80 -/
def insert (before after : List Datum) : Handler Unit where
  act := fun t d => some (t, before ++ [d] ++ after, false)

/-- /repo/modules/to/RAW.c:4-19 -/
def raw : Handler Unit where
  act := fun t d => some (t, [d.drop 1], false)

/-- /repo/modules/to/ANY.c:48-59; private data: the counter given by ERROR (not counted without it). -/
def any (data : List Datum) (counts : Bool) : Handler Nat where
  act := fun c _ => some (if counts then c + 1 else c, data, false)

/-- /repo/modules/inter/SCORE.c:75-109 with a scorer (the score file is not modelled); private data: the counter.
A datum of score 0 is refused. -/
def score (f : Datum → Nat) : Handler Nat where
  act := fun c d => if f d = 0 then none else some (c + f d, [d], false)

/-- `w=*(full)*2 + *(half) + *(ambi)*ambi_width` after running the datum through an instance of WIDTH with its
counters reset, /repo/modules/inter/TRIM-WIDTH.c:63-70.  That the sub-instance computes this and hands the datum
back is `trim_sub` in Props/Inter.lean. -/
def widthOf (ambi : Nat) (d : Datum) : Nat :=
  let c := Widths.add ⟨0, 0, 0⟩ (row Range.widthTable d)
  c.full * 2 + c.half + c.ambi * ambi

/-- /repo/modules/inter/TRIM-WIDTH.c:59-85; private data: `remain`. -/
def trim (ambi : Nat) : Handler Int where
  act := fun remain d =>
    if remain ≥ widthOf ambi d then some (remain - widthOf ambi d, [d], false) else some (-1, [], false)

/-- /repo/modules/inter/AMBIGUOUS-PAD.c:30-79; private data: `dopad`. -/
def pad : Handler Bool where
  act := fun dopad d =>
    some (dopad, if (row Range.ambiguous d).isSome && dopad then [d, [1, 0xA0]] else [d], false)

/-- Private data of AMBIGUOUS-UNPAD: /repo/modules/inter/AMBIGUOUS-UNPAD.c:5-8 -/
structure Unpad where
  s : Bool
  dopad : Bool
  deriving DecidableEq, Repr

/-- /repo/modules/inter/AMBIGUOUS-UNPAD.c:35-84.  Anything but unicode data of at least two bytes is dropped. -/
def unpad : Handler Unpad where
  act := fun t d =>
    match d with
    | 1 :: b :: _ =>
      if t.s = true ∧ b = 0xA0 then some ({ t with s := false }, [], false)
      else some (if (row Range.ambiguous d).isSome && t.dopad then { t with s := true } else t, [d], false)
    | _ => some ({ t with s := false }, [], false)

/-- Private data of STRINGS: /repo/modules/inter/STRINGS.c:5-12.  `dangling`: `qh->next` points to data that were
given back to the pool; `bad`: such data were given back once more. -/
structure Strings where
  queue : List Datum
  acc : Nat
  dangling : Bool
  bad : Bool
  deriving DecidableEq, Repr

/-- `cbflush`, /repo/modules/inter/STRINGS.c:103-128.  `acc_len` is unsigned, so a negative `min_len` is a huge
number; `minLen` is its value as an unsigned int.  After `DATA_FREE` `qh->next` keeps its value. -/
def Strings.flush (minLen : Nat) (before after : List Datum) (t : Strings) : Strings × List Datum :=
  if t.queue = [] ∧ t.dangling = false then (t, [])
  else if t.acc ≥ minLen then
    (⟨[], 0, false, t.bad || t.dangling⟩, before ++ t.queue ++ after)
  else (⟨[], 0, true, t.bad || t.dangling⟩, [])

/-- /repo/modules/inter/STRINGS.c:130-145.  Appending at `qt==qh` overwrites a dangling `qh->next`. -/
def strings (f : Datum → Bool) (minLen : Nat) (before after : List Datum) : Handler Strings where
  act := fun t d =>
    if f d then some (⟨t.queue ++ [d], t.acc + 1, false, t.bad⟩, [], true)
    else
      let r := t.flush minLen before after
      some (r.1, r.2, false)
  flush := Strings.flush minLen before after

/-- `cbinit`, /repo/modules/inter/STRINGS.c:75-85: gives back what hangs at `qh->next` - if that is dangling, once
more. -/
def Strings.init (t : Strings) : Strings := ⟨[], 0, false, t.bad || t.dangling⟩

end Verif.Inter
