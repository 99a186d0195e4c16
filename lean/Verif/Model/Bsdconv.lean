import Verif.Model.Inter
import Verif.Model.Escape
import Verif.Spec.HexText
/-
The text representation of data: /repo/modules/from/BSDCONV.c and /repo/modules/to/BSDCONV.c, both with the table `* ?`.
-/
namespace Verif.Engine
open Verif.Spec (Lens setPriv Handler)

variable {π : Type}

/-- A pointer to allocated memory, as far as `free` is concerned. -/
inductive Ptr | null | live | freed
  deriving DecidableEq, Repr

/-- `flag`: `F_CLEAR`, `F_A`, `F_B`; /repo/modules/from/BSDCONV.c:7-9 -/
inductive HexFlag | clear | a | b
  deriving DecidableEq, Repr

/-- `struct my_s`, /repo/modules/from/BSDCONV.c:11-16: `buf` are the first `data.len` bytes at `data.data`, `ptr` the pointer
itself.  `bad` is set when memory is freed twice.  `size` only matters for `realloc` and is left out. -/
structure HexPriv where
  buf : List Nat := []
  ptr : Ptr := .null
  flag : HexFlag := .clear
  bad : Bool := false
  deriving DecidableEq, Repr

/-- `if(t->data.data) free(t->data.data);` -/
def HexPriv.release (t : HexPriv) : HexPriv :=
  match t.ptr with
  | .null => t
  | .live => { t with ptr := .freed }
  | .freed => { t with bad := true }

/-- `cbinit`, /repo/modules/from/BSDCONV.c:25-32: the pointer is freed and kept. -/
def hexInit (t : HexPriv) : HexPriv := { t.release with buf := [], flag := .clear }

/-- `hex[]`, /repo/src/bsdconv.h:401 -/
def hexTable (c : Nat) : Option Nat :=
  if 48 ≤ c ∧ c ≤ 57 then some (c - 48) else if 65 ≤ c ∧ c ≤ 70 then some (c - 55) else if 97 ≤ c ∧ c ≤ 102 then some (c - 87) else none

/-- Replace the last byte `x` by `x<<4|v`. -/
def shiftLast : List Nat → Nat → List Nat
  | [], _ => []
  | [x], v => [(x * 16 ||| v) % 256]
  | x :: y :: r, v => x :: shiftLast (y :: r) v

/-- A hexadecimal digit: the status set and the new private data, /repo/modules/from/BSDCONV.c:76-103 -/
def hexDigitStep (t : HexPriv) (v : Nat) : HexPriv × Status :=
  let t := if t.flag = .clear then { t with flag := .a, buf := [], ptr := .null } else t
  let st : Status := if t.buf ≠ [] then .submatch else .cont
  match t.flag with
  | .b => ({ t with buf := shiftLast t.buf v, flag := .a }, st)
  | _ => ({ t with buf := t.buf ++ [v], ptr := .live, flag := .b }, st)

/-- `cbconv`, /repo/modules/from/BSDCONV.c:48-104.  In the branch that puts out a datum, `RESET` also sets the status, which
is then overwritten. -/
def hexConv (e : Lens π HexPriv) (l : Loc π) : Loc π :=
  let j := l.ph.index
  let t := e.get (l.ph.priv j)
  let put := fun t => setPriv l.ph.priv j (e.put t (l.ph.priv j))
  match hexTable ((l.prev.get l.ph.curr).getD l.ph.i 0) with
  | none =>
    if l.ph.fMatch then
      { l with
        prev := l.prev.listFree l.ph.bak
        ph := { l.ph with
          fPending := false, fMatch := false, fLoop := false, q := l.ph.q.push t.buf, curr := 0, i := l.ph.consumed
          index := 0, offset := 0, st := 0, priv := put { t with ptr := .null, flag := .clear }, status := .noop } }
    else
      { l with ph := { l.ph with status := .deadend, priv := put { t.release with ptr := .null, flag := .clear } } }
  | some v =>
    let r := hexDigitStep t v
    { l with ph := { l.ph with status := r.2, priv := put r.1 } }

/-- `cbflush`, /repo/modules/from/BSDCONV.c:42-46.  The copy shares the memory with the private data. -/
def hexFlush (e : Lens π HexPriv) (l : Loc π) : Loc π :=
  { l with ph := { l.ph with q := l.ph.q.push (e.get (l.ph.priv l.ph.index)).buf } }

/-- The decoder. -/
def hexDecoder (e : Lens π HexPriv) : Codec π := anyByte (hexConv e) (some (hexFlush e))

/-- The encoder, /repo/modules/to/BSDCONV.c:7-25: `%02X` for every byte of the datum, no separator. -/
def hexEncoder : Handler π where
  act := fun t d => some (t, [d.flatMap Escape.hex2], false)

end Verif.Engine
