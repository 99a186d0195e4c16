import Verif.Model.Machine
/-
Model of /repo/modules/from/UTF-16BE.c, UTF-16LE.c, UTF-32BE.c, UTF-32LE.c and
/repo/modules/to/UTF-16BE.c, UTF-16LE.c, UTF-32BE.c, UTF-32LE.c, UCS-2BE.c, UCS-2LE.c.
Bytes are `Nat`s below 256.  `char` may be signed in C; all uses are masked or copied, so only the low
8 bits matter.
-/
namespace Verif.Utf16
open Verif.Engine

/-- `struct my_s`: /repo/modules/from/UTF-16BE.c:6-9 (the same in all four decoders). -/
structure Priv where
  status : Nat
  b0 : Nat
  b1 : Nat
  b2 : Nat
  b3 : Nat
  deriving DecidableEq, Repr

/-- The datum built from `buf[i..]` where `i` is the first index with a non-zero byte:
/repo/modules/from/UTF-16BE.c:50-62, UTF-32BE.c:53-65.  All zeros give the datum `01`. -/
def datum (buf : List Nat) : Datum := 1 :: buf.dropWhile (· == 0)

/-- One iteration of `cbconv`; `le` selects which `buf` element a byte goes to.
/repo/modules/from/UTF-16BE.c:35-104, UTF-16LE.c:34-104 -/
def step16 (le : Bool) (t : Priv) (d : Nat) : Priv × List Datum × Option Status :=
  match t.status with
  | 0 => (if le then { t with b1 := d, status := 1 } else { t with b0 := d, status := 1 }, [], none)
  | 1 =>
    let t := if le then { t with b0 := d } else { t with b1 := d }
    if t.b0 &&& 0xfc == 0xd8 then ({ t with status := 2 }, [], none)
    else ({ t with status := 0 }, [datum [t.b0, t.b1]], some .nextphase)
  | 2 => (if le then { t with b3 := d, status := 3 } else { t with b2 := d, status := 3 }, [], none)
  | _ =>
    let t := if le then { t with b2 := d, status := 0 } else { t with b3 := d, status := 0 }
    if t.b2 &&& 0xfc == 0xdc then
      let x := ((((t.b0 &&& 0x03) <<< 2) ||| ((t.b1 >>> 6) &&& 0x03)) + 1) % 256
      let y := ((t.b1 <<< 2) &&& 0xfc) ||| (t.b2 &&& 0x03)
      (t, [datum [x, y, t.b3]], some .nextphase)
    else (t, [], some .deadend)

/-- The decoder's loop. -/
def machine16 (le : Bool) : Machine Priv := ⟨step16 le⟩

/-- One iteration of `cbconv`, /repo/modules/from/UTF-32BE.c:33-72, UTF-32LE.c:33-72 -/
def step32 (le : Bool) (t : Priv) (d : Nat) : Priv × List Datum × Option Status :=
  match t.status with
  | 0 => (if le then { t with b3 := d, status := 1 } else { t with b0 := d, status := 1 }, [], none)
  | 1 => (if le then { t with b2 := d, status := 2 } else { t with b1 := d, status := 2 }, [], none)
  | 2 => (if le then { t with b1 := d, status := 3 } else { t with b2 := d, status := 3 }, [], none)
  | _ =>
    let t := if le then { t with b0 := d, status := 0 } else { t with b3 := d, status := 0 }
    (t, [datum [t.b0, t.b1, t.b2, t.b3]], some .nextphase)

/-- The decoder's loop. -/
def machine32 (le : Bool) : Machine Priv := ⟨step32 le⟩

/-- Zeros, then the bytes, to a width of `n` (the bytes are at most `n`). -/
def pad (n : Nat) (bs : List Nat) : List Nat := List.replicate (n - bs.length) 0 ++ bs

/-- `SWAP` of neighbouring bytes, /repo/modules/to/UTF-16LE.c:42-43, 60 -/
def swap2 : List Nat → List Nat
  | a :: b :: r => b :: a :: swap2 r
  | r => r

/-- The big-endian bytes built by /repo/modules/to/UTF-16BE.c:6-51 (the same code in UTF-16LE.c:8-60). -/
def out16 (d : Datum) : List Nat :=
  let data := d.drop 1
  if d.length > 3 then
    let c := (data.getD 0 0 + 255) % 256
    let y := data.getD 1 0
    [0xd8 ||| ((c >>> 2) &&& 0x03), ((c <<< 6) &&& 0xc0) ||| ((y >>> 2) &&& 0x3f),
      0xdc ||| (y &&& 0x03), data.getD 2 0]
  else pad 2 data

/-- `cbconv` of the encoders, /repo/modules/to/UTF-16BE.c:6-51, UTF-16LE.c:8-64.  The table `01*`
guarantees a type byte and at least one more byte. -/
def encode16 (le : Bool) (d : Datum) : Option (List Datum) :=
  some [if le then swap2 (out16 d) else out16 d]

/-- Bytes written to the 4-byte buffer by /repo/modules/to/UTF-32BE.c:20-24: `4-len` is unsigned, so for
more than four bytes the zero loop runs `2^32+4-len` times. -/
def written32 (d : Datum) : Nat :=
  let len := d.length - 1
  (if len ≤ 4 then 4 - len else 2 ^ 32 + 4 - len) + len

/-- `cbconv`, /repo/modules/to/UTF-32BE.c:6-25, UTF-32LE.c:8-32, for data of at most four bytes (see
`written32` for others). -/
def encode32 (le : Bool) (d : Datum) : Option (List Datum) :=
  let out := pad 4 (d.drop 1)
  some [if le then out.reverse else out]

/-- `cbconv`, /repo/modules/to/UCS-2BE.c:6-31, UCS-2LE.c:8-36 -/
def encodeUcs2 (le : Bool) (d : Datum) : Option (List Datum) :=
  if d.length > 3 then none
  else
    let out := pad 2 (d.drop 1)
    some [if le then swap2 out else out]

end Verif.Utf16
