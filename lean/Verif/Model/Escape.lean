import Verif.Model.Machine
/-
Model of /repo/modules/from/ESCAPE.c, /repo/modules/to/ESCAPE.c and
/repo/modules/from/ASCII-NUMERIC-HTML-ENTITY.c.  Characters are byte values (ASCII).
-/
namespace Verif.Escape
open Verif.Engine

/-- `hex[(unsigned char)d]`, /repo/src/bsdconv.h:401; `none` = -1 -/
def hexb (n : Nat) : Option Nat :=
  if 48 ≤ n ∧ n ≤ 57 then some (n - 48)
  else if 65 ≤ n ∧ n ≤ 70 then some (n - 55)
  else if 97 ≤ n ∧ n ≤ 102 then some (n - 87)
  else none

/-- `dec[(unsigned char)d]`, /repo/src/bsdconv.h:398 -/
def decb (n : Nat) : Option Nat := if 48 ≤ n ∧ n ≤ 57 then some (n - 48) else none

/-- `oct[(unsigned char)d]`, /repo/src/bsdconv.h:395 -/
def octb (n : Nat) : Option Nat := if 48 ≤ n ∧ n ≤ 55 then some (n - 48) else none

/-! ## from/ESCAPE -/

/-- `struct my_s`, /repo/modules/from/ESCAPE.c:9-14 (`tbl`, `b`, `buf[2]`, `buf[3]` are never written). -/
structure Priv where
  status : Nat
  b0 : Nat
  b1 : Nat
  deriving DecidableEq, Repr

/-- `DEADEND()`, /repo/modules/from/ESCAPE.c:31-35 -/
def dead (t : Priv) : Priv × List Datum × Option Status := ({ t with status := 0 }, [], some .deadend)

/-- One iteration of `cbconv`, /repo/modules/from/ESCAPE.c:44-196.  In case 43 with `buf[0]=buf[1]=0` the code
reads `buf[2]` and beyond, which nothing initialises; the model emits the datum `01` there, and no theorem
is claimed for that input. -/
def step (t : Priv) (d : Nat) : Priv × List Datum × Option Status :=
  match t.status with
  | 0 =>
    if d = 37 then ({ t with status := 10 }, [], none)        -- '%'
    else if d = 92 then ({ t with status := 11 }, [], none)   -- '\\'
    else dead t
  | 10 =>
    if d = 117 then ({ t with status := 40 }, [], none)       -- 'u'
    else match hexb d with
      | none => dead t
      | some h => ({ t with status := 21, b0 := h }, [], none)
  | 11 =>
    if d = 117 then ({ t with status := 40 }, [], none)       -- 'u'
    else if d = 120 then ({ t with status := 20 }, [], none)  -- 'x'
    else match octb d with
      | none => dead t
      | some o => ({ t with status := 31, b0 := o }, [], none)
  | 20 =>
    match hexb d with
    | none => dead t
    | some h => ({ t with status := 21, b0 := h }, [], none)
  | 21 =>
    match hexb d with
    | none => dead t
    | some h =>
      let v := (t.b0 * 16 + h) % 256
      ({ t with status := 0, b0 := v }, [[3, v]], some .nextphase)
  | 31 =>
    match octb d with
    | none => dead t
    | some o => ({ t with status := 32, b0 := (t.b0 * 8 + o) % 256 }, [], none)
  | 32 =>
    match octb d with
    | none => dead t
    | some o =>
      let i := t.b0 * 8 + o
      if 377 < i then dead t
      else ({ t with status := 0, b0 := i % 256 }, [[3, i % 256]], some .nextphase)
  | 40 =>
    match hexb d with
    | none => dead t
    | some h => ({ t with status := 41, b0 := h }, [], none)
  | 41 =>
    match hexb d with
    | none => dead t
    | some h => ({ t with status := 42, b0 := (t.b0 * 16 + h) % 256 }, [], none)
  | 42 =>
    match hexb d with
    | none => dead t
    | some h => ({ t with status := 43, b1 := h }, [], none)
  | 43 =>
    match hexb d with
    | none => dead t
    | some h =>
      let v := (t.b1 * 16 + h) % 256
      ({ t with status := 0, b1 := v }, [1 :: [t.b0, v].dropWhile (· == 0)], some .nextphase)
  | _ => (t, [], none)

/-- The decoder's loop (table `*	?`, /repo/modules/from/ESCAPE.txt). -/
def machine : Machine Priv := ⟨step⟩

/-! ## to/ESCAPE -/

/-- `FOR`, /repo/modules/to/ESCAPE.c:51-61 -/
inductive Filter | unicode | byte deriving DecidableEq, Repr

/-- `MODE`, /repo/modules/to/ESCAPE.c:38-50 -/
inductive Mode | hex | dec | oct deriving DecidableEq, Repr

/-- `struct my_s`, /repo/modules/to/ESCAPE.c:7-12; the defaults are those of `cbcreate`, 18-23. -/
structure Opts where
  pre : List Nat := [37, 117]   -- "%u"
  suf : List Nat := []
  filter : Filter := .unicode
  mode : Mode := .hex

/-- An upper case hexadecimal digit. -/
def hexDigit (n : Nat) : Nat := if n < 10 then 48 + n else 55 + n

/-- `sprintf("%02X", b)` -/
def hex2 (b : Nat) : List Nat := [hexDigit (b / 16 % 16), hexDigit (b % 16)]

/-- `sprintf("%u", n)`: decimal digits. -/
def decDigits (n : Nat) : List Nat := if n < 10 then [48 + n] else decDigits (n / 10) ++ [48 + n % 10]
  termination_by n
  decreasing_by omega

/-- The number in `u` after the loop /repo/modules/to/ESCAPE.c:117-121 (`unsigned int`, 32 bits). -/
def num32 (bs : List Nat) : Nat := bs.foldl (fun u b => (u * 256 + b) % 2 ^ 32) 0

/-- `cbconv`, /repo/modules/to/ESCAPE.c:83-175 (table `*	?`); `none` = DEADEND. -/
def encode (o : Opts) (d : Datum) : Option (List Datum) :=
  if o.filter = .unicode ∧ 1 < d.length ∧ d.getD 0 0 = 1 then
    match o.mode with
    | .hex => some [o.pre ++ (d.drop 1).flatMap hex2 ++ o.suf]
    | .dec => some [o.pre ++ decDigits (num32 (d.drop 1)) ++ o.suf]
    | .oct => none
  else if o.filter = .byte ∧ d.length = 2 ∧ d.getD 0 0 = 3 then
    let b := d.getD 1 0
    match o.mode with
    | .oct => some [o.pre ++ [b / 8 / 8 + 48, b / 8 % 8 + 48, b % 8 + 48] ++ o.suf]
    | .dec => some [o.pre ++ decDigits b ++ o.suf]
    | .hex => some [o.pre ++ hex2 b ++ o.suf]
  else none

/-! ## from/ASCII-NUMERIC-HTML-ENTITY -/

/-- `struct my_s`, /repo/modules/from/ASCII-NUMERIC-HTML-ENTITY.c:9-17; `hex` stands for `tbl`/`b`. -/
structure EPriv where
  status : Nat
  hex : Bool
  val : Nat
  deriving DecidableEq, Repr

/-- Bytes of `htobe32(buf.i)` without leading zeros: /repo/modules/from/ASCII-NUMERIC-HTML-ENTITY.c:52-56 -/
def entBytes (n : Nat) : List Nat :=
  [n / 0x1000000 % 256, n / 0x10000 % 256, n / 256 % 256, n % 256].dropWhile (· == 0)

/-- `t->tbl[d]` -/
def etbl (hex : Bool) (d : Nat) : Option Nat := if hex then hexb d else decb d
/-- `t->b` -/
def ebase (hex : Bool) : Nat := if hex then 16 else 10

/-- One iteration of `cbconv`, /repo/modules/from/ASCII-NUMERIC-HTML-ENTITY.c:48-87 (entered after the two bytes
`&#`: table `2623*	?`).  `status` is an `int` counter; its overflow after 2^31 digits is not modelled. -/
def estep (t : EPriv) (d : Nat) : EPriv × List Datum × Option Status :=
  if d = 59 ∧ t.status ≠ 0 then   -- ';'
    ({ t with status := 0 }, [1 :: entBytes t.val], some .nextphase)
  else if t.status ≠ 0 then
    match etbl t.hex d with
    | none => ({ t with status := 0 }, [], some .deadend)
    | some v => ({ t with status := t.status + 1, val := (t.val * ebase t.hex + v) % 2 ^ 32 }, [], none)
  else if d = 120 then ({ t with status := 1000, hex := true, val := 0 }, [], none)   -- 'x'
  else match decb d with
    | none => ({ t with status := 0, hex := false }, [], some .deadend)
    | some v => ({ t with status := 1, hex := false, val := v }, [], none)

/-- The decoder's loop. -/
def emachine : Machine EPriv := ⟨estep⟩

end Verif.Escape
