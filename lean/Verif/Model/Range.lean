/-
Model of the interval-table lookups: /repo/modules/filter/unicode_range.c, /repo/modules/filter/type.c,
/repo/modules/scorer/unicode_range.c and the copies of the same search in /repo/modules/inter/WIDTH.c,
AMBIGUOUS-PAD.c, AMBIGUOUS-UNPAD.c, _NF-ORDER.c, _NFC.c and in the GB18030 codecs.
-/
namespace Verif.Range

/-- One row of a table: first and last code point, and the value the lookup yields (1 for plain filters).
`struct uint32_range`, `uint32_range_with_score` (/repo/src/bsdconv.h), `struct interval`,
`struct width_interval`, `struct ccc_interval`. -/
structure Row where
  beg : Nat
  last : Nat
  val : Int := 1
  deriving DecidableEq, Repr

/-- What the search leaves behind: did it `break` (or return) on a row, and the last value of `mid`. -/
structure Found where
  hit : Bool
  mid : Nat
  deriving DecidableEq, Repr

/-- `while (max >= min) { mid=(min+max)/2; … }` over signed ints,
/repo/modules/filter/unicode_range.c:26-34.  `none`: a row outside the table was read. -/
def loop (t : List Row) (u : Nat) (min max : Int) (mid : Nat) : Option Found :=
  if max ≥ min then
    let m := (min + max) / 2
    if m < 0 then none else
    match t[m.toNat]? with
    | none => none
    | some r =>
      if u > r.last then loop t u (m + 1) max m.toNat
      else if u < r.beg then loop t u min (m - 1) m.toNat
      else some ⟨true, m.toNat⟩
  else some ⟨false, mid⟩
termination_by (max + 1 - min).toNat
decreasing_by all_goals omega

/-- The test against the ends of the table, then the loop from `min=0`, `max=n-1`:
/repo/modules/filter/unicode_range.c:23-34.  Outer `none`: out-of-bounds read; inner `none`: the number is
below the first or above the last row. -/
def search (t : List Row) (u : Nat) : Option (Option Found) :=
  match t[0]?, t[t.length - 1]? with
  | some a, some z => if u < a.beg ∨ u > z.last then some none else (loop t u 0 (t.length - 1) 0).map some
  | _, _ => none

/-- The row found, if any (`none` outside: out-of-bounds read). -/
def find (t : List Row) (u : Nat) : Option (Option Row) :=
  (search t u).map fun f => match f with
    | some ⟨true, m⟩ => t[m]?
    | _ => none

/-- `for(i=1;i<len;++i){ ucs<<=8; ucs|=data[i]; }` on a `uint32_t`,
/repo/modules/filter/unicode_range.c:18-21 -/
def ucs (bytes : List Nat) : Nat := bytes.foldl (fun u b => (u <<< 8) % 2 ^ 32 ||| b) 0

/-- `cbfilter` of /repo/modules/filter/unicode_range.c:7-37 -/
def cbfilter (t : List Row) (d : List Nat) : Option Bool :=
  match d with
  | [] => some false
  | h :: p => if h ≠ 1 then some false else (find t (ucs p)).map Option.isSome

/-- `cbscorer` of /repo/modules/scorer/unicode_range.c:7-37 -/
def cbscorer (t : List Row) (d : List Nat) : Option Int :=
  match d with
  | [] => some 0
  | h :: p => if h ≠ 1 then some 0 else (find t (ucs p)).map fun r => match r with | some r => r.val | none => 0

/-- `cbfilter` of /repo/modules/filter/type.c -/
def typefilter (ty : Nat) (d : List Nat) : Bool :=
  match d with
  | [] => false
  | h :: _ => h == ty

/-- The lookup shared by WIDTH.c:35-59, AMBIGUOUS-PAD.c, AMBIGUOUS-UNPAD.c, _NF-ORDER.c:49-74 and _NFC.c:
unicode data only; `none` inside: no row. The datum is never empty there (the callback is reached through a
byte). -/
def lookup (t : List Row) (d : List Nat) : Option (Option Int) :=
  match d with
  | [] => some none
  | h :: p => if h ≠ 1 then some none else (find t (ucs p)).map fun r => r.map Row.val

end Verif.Range
