import Verif.Model.Machine
import Verif.Model.Range
import Verif.Model.Utf16
/-
Model of the callbacks of /repo/modules/from/_GB18030.c and /repo/modules/to/_GB18030.c.
-/
namespace Verif.Gb18030
open Verif.Engine Verif.Range

/-- `struct my_s`: /repo/modules/from/_GB18030.c:11-14 -/
structure Priv where
  status : Nat
  ucs : Nat
  deriving DecidableEq, Repr

/-- `gb18030_table` of the decoder; `val` is `off`.  /repo/modules/from/_GB18030.c:44-58 -/
def fromTable : List Row := [
  ⟨1688038, 1695139, 0x0452⟩, ⟨1696437, 1698546, 0x2643⟩, ⟨1700191, 1700955, 0x361B⟩, ⟨1701916, 1702800, 0x3CE1⟩,
  ⟨1703065, 1703535, 0x4160⟩, ⟨1703947, 1704319, 0x44D7⟩, ⟨1704636, 1705076, 0x478E⟩, ⟨1705179, 1705881, 0x49B8⟩,
  ⟨1706261, 1720686, 0x9FA6⟩, ⟨1720768, 1725062, 0xE865⟩, ⟨1725296, 1726325, 0xFA2A⟩, ⟨1726612, 1726637, 0xFFE6⟩,
  ⟨1876218, 2924793, 0x10000⟩]

/-- `gb18030_table` of the encoder.  /repo/modules/to/_GB18030.c:10-24 -/
def toTable : List Row := [
  ⟨0x0452, 0x200F, 1688038⟩, ⟨0x2643, 0x2E80, 1696437⟩, ⟨0x361B, 0x3917, 1700191⟩, ⟨0x3CE1, 0x4055, 1701916⟩,
  ⟨0x4160, 0x4336, 1703065⟩, ⟨0x44D7, 0x464B, 1703947⟩, ⟨0x478E, 0x4946, 1704636⟩, ⟨0x49B8, 0x4C76, 1705179⟩,
  ⟨0x9FA6, 0xD7FF, 1706261⟩, ⟨0xE865, 0xF92B, 1720768⟩, ⟨0xFA2A, 0xFE2F, 1725296⟩, ⟨0xFFE6, 0xFFFF, 1726612⟩,
  ⟨0x10000, 0x10FFFF, 1876218⟩]

/-- The range test, the search and the test of `table[mid]` after it: /repo/modules/from/_GB18030.c:113-129,
/repo/modules/to/_GB18030.c:50-67.  Outer `none`: a row outside the table is read; inner `none`: DEADEND;
otherwise `off + (u - beg)`. -/
def convert (t : List Row) (u : Nat) : Option (Option Nat) :=
  match search t u with
  | none => none
  | some none => some none
  | some (some f) =>
    match t[f.mid]? with
    | none => none
    | some r => some (if r.beg ≤ u ∧ u ≤ r.last then some (r.val.toNat + (u - r.beg)) else none)

/-- What `status`, `ucs` become when byte number `status` is `b`: the four cases of
/repo/modules/from/_GB18030.c:78-112 have the same arithmetic for bytes of the rule's data (`c`) and of the
input (`d`). -/
def accept (t : Priv) (b : Nat) : Priv :=
  match t.status with
  | 0 => ⟨1, b * 10⟩
  | 1 => ⟨2, (t.ucs + b) * 126⟩
  | 2 => ⟨3, (t.ucs + b) * 10⟩
  | _ => ⟨0, t.ucs + b⟩

/-- `if(t->status<data.len){ …c[status]…; goto next; }`: takes in the bytes the table has already matched.  The
rules of /repo/modules/from/_GB18030.txt with a callback have one to three bytes of data (with four the C loop
would not end). -/
def catchUp (c : List Nat) (t : Priv) : Priv :=
  if t.status < c.length ∧ t.status < 3 then catchUp c (accept t (c.getD t.status 0)) else t
termination_by 3 - t.status
decreasing_by
  rename_i h
  obtain ⟨s, u⟩ := t
  simp only at h ⊢
  rcases h with ⟨_, h⟩
  match s, h with
  | 0, _ => simp [accept]
  | 1, _ => simp [accept]
  | 2, _ => simp [accept]

/-- `ucs.ucs4=htobe32(n); for(i=0;ucs.byte[i]==0 && i<4;++i);` and the copy of the rest,
/repo/modules/from/_GB18030.c:130-146 -/
def datumOf (n : Nat) : Datum := Utf16.datum [n / 0x1000000 % 256, n / 0x10000 % 256, n / 256 % 256, n % 256]

/-- One iteration of `cbconv` in a state whose rule has the data `c`: /repo/modules/from/_GB18030.c:71-152.  No
check that the bytes lie in the ranges of GB18030 is made. -/
def step (c : List Nat) (t : Priv) (d : Nat) : Priv × List Datum × Option Status :=
  let t := catchUp c t
  let last := decide (t.status = 3)
  let t := accept t d
  if last then
    match convert fromTable t.ucs with
    | some (some n) => (t, [datumOf n], some .nextphase)
    | _ => (t, [], some .deadend)
  else (t, [], none)

/-- The decoder's loop. -/
def machine (c : List Nat) : Machine Priv := ⟨step c⟩

/-- `cbconv` in state `st` of a table whose rule data are `data`. -/
def conv (data : Nat → List Datum) (l : Loc Priv) : Loc Priv :=
  (machine ((data l.ph.st).headD [])).conv l

/-- `cbconv` of the encoder, /repo/modules/to/_GB18030.c:26-89, for data of at most four bytes after the type
byte (the C code writes before `codepoint.byte` otherwise).  Outer `none`: a row outside the table is read. -/
def encode (d : Datum) : Option (Option (List Datum)) :=
  let ucs := (d.drop 1).foldl (fun u b => u * 256 + b) 0
  match convert toTable ucs with
  | none => none
  | some none => some none
  | some (some gb) =>
    let g := gb - 1687218
    some (some [[0x81 + g / 10 / 126 / 10, 0x30 + g / 10 / 126 % 10, 0x81 + g / 10 % 126, 0x30 + g % 10]])

end Verif.Gb18030
