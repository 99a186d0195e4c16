import Verif.Model.Machine
/-
Model of /repo/modules/from/_UTF-8.c and /repo/modules/to/_UTF-8.c.  Bytes are `Nat`s below 256; shifted
values are cut to 8 bits where the C code stores into an `unsigned char`.
-/
namespace Verif.Utf8
open Verif.Engine

/-- `ucs_t`, /repo/src/bsdconv.h:404-407: four bytes, `b0` = `byte[0]` the most significant. -/
structure Ucs where
  b0 : Nat
  b1 : Nat
  b2 : Nat
  b3 : Nat
  deriving DecidableEq, Repr

/-- `ucs4=0`: /repo/modules/from/_UTF-8.c, `cbinit`. -/
def Ucs.zero : Ucs := ⟨0, 0, 0, 0⟩

/-- `be32toh(x.ucs4)` -/
def Ucs.val (u : Ucs) : Nat := ((u.b0 * 256 + u.b1) * 256 + u.b2) * 256 + u.b3

/-- `x.ucs4 = htobe32(v)` -/
def Ucs.of (v : Nat) : Ucs := ⟨v / 0x1000000 % 256, v / 0x10000 % 256, v / 256 % 256, v % 256⟩

/-- The options, /repo/modules/from/_UTF-8.c:10-14, 25-37. -/
structure Opts where
  cesu : Bool := false
  loose : Bool := false
  nul : Bool := false
  overlong : Bool := false
  super : Bool := false
  deriving DecidableEq, Repr

/-- `struct my_s`, /repo/modules/from/_UTF-8.c:6-15 without the options. -/
structure Priv where
  status : Nat
  lead : Ucs
  ucs : Ucs
  deriving DecidableEq, Repr

/-- `cbinit`, /repo/modules/from/_UTF-8.c:43-48; also what `DEADEND()` leaves, lines 55-61. -/
def Priv.zero : Priv := ⟨0, .zero, .zero⟩

/-- What one iteration of the loop gives. -/
abbrev Out := Priv × List Datum × Option Status

/-- `DEADEND()`, /repo/modules/from/_UTF-8.c:55-61 (`out`: what was appended before). -/
def dead (out : List Datum) : Out := (.zero, out, some .deadend)

/-- The datum `PASS(x)` appends: leading zero bytes dropped, but at most three.
/repo/modules/from/_UTF-8.c:128-150 -/
def datum (u : Ucs) : Datum :=
  if u.b0 ≠ 0 then [1, u.b0, u.b1, u.b2, u.b3]
  else if u.b1 ≠ 0 then [1, u.b1, u.b2, u.b3]
  else if u.b2 ≠ 0 then [1, u.b2, u.b3]
  else [1, u.b3]

/-- `PASS(x)` followed by `k`; zero is refused without the option `nul`.
/repo/modules/from/_UTF-8.c:124-150 -/
def pass (o : Opts) (u : Ucs) (out : List Datum) (k : List Datum → Out) : Out :=
  if u = .zero ∧ !o.nul then dead out else k (out ++ [datum u])

/-- `COMMIT()`, /repo/modules/from/_UTF-8.c:63-122 -/
def commit (o : Opts) (t : Priv) : Out :=
  let v := t.ucs.val
  if 0xD800 ≤ v ∧ v ≤ 0xDBFF then
    if o.cesu then
      let fin := fun out => ((⟨0, t.ucs, .zero⟩ : Priv), out, some (if o.loose then Status.submatch else Status.cont))
      if t.lead ≠ .zero then
        if o.loose then pass o t.lead [] fin else dead []
      else fin []
    else if o.loose then pass o t.ucs [] fun out => (⟨0, t.lead, .zero⟩, out, some .nextphase)
    else dead []
  else if 0xDC00 ≤ v ∧ v ≤ 0xDFFF then
    if o.cesu then
      if t.lead ≠ .zero then
        let cp := 0x10000 ||| (((t.lead.val - 0xD800) <<< 10) &&& 0xffc00) ||| ((v - 0xDC00) &&& 0x3ff)
        pass o (.of cp) [] fun out => (.zero, out, some .nextphase)
      else if o.loose then pass o t.ucs [] fun out => (⟨0, t.lead, .zero⟩, out, some .nextphase)
      else dead []
    else if o.loose then pass o t.ucs [] fun out => (⟨0, t.lead, .zero⟩, out, some .nextphase)
    else dead []
  else
    let fin := fun (l : Ucs) out => pass o t.ucs out fun out => ((⟨0, l, .zero⟩ : Priv), out, some Status.nextphase)
    if t.lead ≠ .zero then
      if o.loose then pass o t.lead [] (fin .zero) else dead []
    else fin t.lead []

/-- Byte `x` or-ed into a byte of the accumulator (stored to 8 bits). -/
def or8 (a x : Nat) : Nat := (a ||| x) % 256

/-- A test `if(!t->overlong && t->ucs.ucs4==0) DEADEND();` before continuing with `k`. -/
def short (o : Opts) (u : Ucs) (k : Out) : Out := if !o.overlong ∧ u = .zero then dead [] else k

/-- Is `d` a continuation byte: `(d & bb11000000) == bb10000000`. -/
def isCont (d : Nat) : Bool := d &&& 0xc0 == 0x80

/-- Cases 52 and 63, /repo/modules/from/_UTF-8.c:278-286, 324-332 -/
def mid2 (t : Priv) (d s : Nat) : Out :=
  let u := t.ucs
  if isCont d then
    (⟨s, t.lead, { u with b1 := or8 u.b1 ((d >>> 4) &&& 0x03), b2 := or8 u.b2 ((d <<< 4) &&& 0xf0) }⟩, [], none)
  else dead []

/-- Cases 42, 53 and 64, /repo/modules/from/_UTF-8.c:249-257, 287-295, 333-341 -/
def mid1 (t : Priv) (d s : Nat) : Out :=
  let u := t.ucs
  if isCont d then
    (⟨s, t.lead, { u with b2 := or8 u.b2 ((d >>> 2) &&& 0x0f), b3 := or8 u.b3 ((d <<< 6) &&& 0xc0) }⟩, [], none)
  else dead []

/-- Cases 21, 32, 43, 54 and 65, /repo/modules/from/_UTF-8.c:208-215, 229-236, 258-265, 296-303, 342-349 -/
def last (o : Opts) (t : Priv) (d : Nat) : Out :=
  if isCont d then commit o { t with ucs := { t.ucs with b3 := or8 t.ucs.b3 (d &&& 0x3f) } }
  else dead []

/-- One iteration of the loop of `cbconv`, /repo/modules/from/_UTF-8.c:166-351 -/
def step (o : Opts) (t : Priv) (d : Nat) : Out :=
  let u := t.ucs
  match t.status with
  | 0 =>
    if d &&& 0x80 == 0 then dead []
    else if d &&& 0xe0 == 0xc0 then
      let u1 := { u with b2 := or8 u.b2 ((d >>> 2) &&& 0x07), b3 := or8 u.b3 ((d <<< 6) &&& 0x80) }
      short o u1 (⟨21, t.lead, { u1 with b3 := or8 u1.b3 ((d <<< 6) &&& 0x40) }⟩, [], none)
    else if d &&& 0xf0 == 0xe0 then
      (⟨31, t.lead, { u with b2 := or8 u.b2 ((d <<< 4) &&& 0xf0) }⟩, [], none)
    else if d &&& 0xf8 == 0xf0 then
      (⟨41, t.lead, { u with b1 := or8 u.b1 ((d <<< 2) &&& 0x1c) }⟩, [], none)
    else if d &&& 0xfc == 0xf8 then
      if !o.super then dead []
      else (⟨51, t.lead, { u with b0 := or8 u.b0 (d &&& 0x03) }⟩, [], none)
    else if d &&& 0xfe == 0xfc then
      if !o.super then dead []
      else (⟨61, t.lead, { u with b0 := or8 u.b0 ((d <<< 6) &&& 0x40) }⟩, [], none)
    else dead []
  | 31 =>
    if isCont d then
      let u1 := { u with b2 := or8 u.b2 ((d >>> 2) &&& 0x08) }
      short o u1 (⟨32, t.lead, { u1 with b2 := or8 u1.b2 ((d >>> 2) &&& 0x07), b3 := or8 u1.b3 ((d <<< 6) &&& 0xc0) }⟩, [], none)
    else dead []
  | 41 =>
    if isCont d then
      let u1 := { u with b1 := or8 u.b1 ((d >>> 4) &&& 0x03) }
      short o u1 (⟨42, t.lead, { u1 with b2 := or8 u1.b2 ((d <<< 4) &&& 0xf0) }⟩, [], none)
    else dead []
  | 51 =>
    if isCont d then
      let u1 := { u with b1 := or8 u.b1 ((d <<< 2) &&& 0xe0) }
      short o u1 (⟨52, t.lead, { u1 with b1 := or8 u1.b1 ((d <<< 2) &&& 0x1c) }⟩, [], none)
    else dead []
  | 61 =>
    if isCont d then
      let u1 := { u with b0 := or8 u.b0 (d &&& 0x3c) }
      short o u1 (⟨62, t.lead, { u1 with b0 := or8 u1.b0 (d &&& 0x03) }⟩, [], none)
    else dead []
  | 62 =>
    if isCont d then (⟨63, t.lead, { u with b1 := or8 u.b1 ((d <<< 2) &&& 0xfc) }⟩, [], none)
    else dead []
  | 52 => mid2 t d 53
  | 63 => mid2 t d 64
  | 42 => mid1 t d 43
  | 53 => mid1 t d 54
  | 64 => mid1 t d 65
  | 21 => last o t d
  | 32 => last o t d
  | 43 => last o t d
  | 54 => last o t d
  | 65 => last o t d
  | _ => dead []
/-- `cbconv`, /repo/modules/from/_UTF-8.c:161-356 -/
def machine (o : Opts) : Machine Priv := ⟨step o⟩

/-- `cbflush`, /repo/modules/from/_UTF-8.c:152-159 -/
def flush (o : Opts) (t : Priv) : Priv × List Datum :=
  if t.lead ≠ .zero ∧ o.loose then ({ t with lead := .zero }, [datum t.lead]) else (t, [])

/-- The decoder as a codec of the engine. -/
def codec (o : Opts) : Codec Priv :=
  anyByte (machine o).conv (some fun l =>
    let r := flush o (l.ph.priv l.ph.index)
    { l with ph := { l.ph with
        priv := fun k => if k = l.ph.index then r.1 else l.ph.priv k
        q := l.ph.q.pushAll r.2 } })

/-- `cbconv` of the encoder, /repo/modules/to/_UTF-8.c:4-117; `none` = DEADEND.  The table `01*` guarantees
the type byte and at least one more byte. -/
def encode (dat : Datum) : Option (List Datum) :=
  match dat.drop 1 with
  | [a] =>
    if a &&& 0x80 == 0 then none
    else some [[0xc0 ||| ((a >>> 6) &&& 0x03), 0x80 ||| (a &&& 0x3f)]]
  | [a, b] =>
    if a &&& 0xf8 == 0 then
      some [[0xc0 ||| ((a <<< 2) &&& 0x1c) ||| ((b >>> 6) &&& 0x03), 0x80 ||| (b &&& 0x3f)]]
    else
      some [[0xe0 ||| ((a >>> 4) &&& 0x0f), 0x80 ||| ((a <<< 2) &&& 0x3c) ||| ((b >>> 6) &&& 0x03),
        0x80 ||| (b &&& 0x3f)]]
  | [a, b, c] =>
    if a &&& 0xe0 == 0 then
      some [[0xf0 ||| ((a >>> 2) &&& 0x07), 0x80 ||| ((a <<< 4) &&& 0x30) ||| ((b >>> 4) &&& 0x0f),
        0x80 ||| ((b <<< 2) &&& 0x3c) ||| ((c >>> 6) &&& 0x03), 0x80 ||| (c &&& 0x3f)]]
    else none
  | _ => none

/-- The encoder as a codec of the engine. -/
def toCodec {π : Type} : Codec π := uniPrefix (encodeConv encode)

end Verif.Utf8
