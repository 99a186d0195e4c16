import Verif.Model.Str
/-
Model of the helpers of /repo/src/libbsdconv_util.c (hex arguments, index arithmetic) and of the
argument parser `_cbcreate` of /repo/src/libbsdconv.c.
-/
namespace Verif.Util

/-- `hex[(unsigned char)c]`, /repo/src/bsdconv.h:401; `none` = -1 -/
def hexv (c : Char) : Option Nat :=
  let n := c.toNat
  if 48 ≤ n ∧ n ≤ 57 then some (n - 48)
  else if 65 ≤ n ∧ n ≤ 70 then some (n - 55)
  else if 97 ≤ n ∧ n ≤ 102 then some (n - 87)
  else none

/-- Outcome of a function that writes to an allocated buffer. -/
inductive Out (α : Type)
  | ok (a : α)
  /-- returned EINVAL -/
  | einval
  /-- a write outside the allocated buffer -/
  | ub
  deriving DecidableEq, Repr

/-- The loop of `str2datum`, /repo/src/libbsdconv_util.c:34-53 (and of `str2data`, 85-105): `cap` is the
allocated size, `f` the half-byte flag, `bs` the finished bytes (so `bs.length` is `d->len`), `cur` the
byte under construction.  The case `f=0` writes at index `d->len`. -/
def hexLoop (cap : Nat) : Str → Bool → List Nat → Nat → Out (List Nat)
  | [], _, bs, _ => .ok bs
  | c :: cs, f, bs, cur =>
    match hexv c with
    | none => .einval
    | some h =>
      if f = false then
        if bs.length < cap then hexLoop cap cs true bs h else .ub
      else hexLoop cap cs false (bs ++ [(cur * 16 + h) % 256]) 0

/-- `str2datum(s, d)`, /repo/src/libbsdconv_util.c:24-55; `none` = NULL argument. -/
def str2datum : Option Str → Out (List Nat)
  | none => .einval
  | some s => hexLoop (s.length / 2) s false [] 0

/-- Sequencing of outcomes. -/
def Out.bind {α β : Type} (x : Out α) (f : α → Out β) : Out β :=
  match x with
  | .ok a => f a
  | .einval => .einval
  | .ub => .ub

/-- The outer loop of `str2data`, /repo/src/libbsdconv_util.c:77-106 -/
def dataLoop : List Str → Out (List (List Nat))
  | [] => .ok []
  | k :: ks => (hexLoop (k.length / 2) k false [] 0).bind fun d => (dataLoop ks).bind fun ds => .ok (d :: ds)

/-- `str2data(_s, r, ins)`, /repo/src/libbsdconv_util.c:57-112: the list of data. -/
def str2data : Option Str → Out (List (List Nat))
  | none => .einval
  | some [] => .ok []
  | some s => dataLoop (tokens '.' s)

/-- `bsdconv_get_phase_index(ins, phasen)` with `len = ins->phasen`,
/repo/src/libbsdconv_util.c:114-126.  C's `%` truncates towards zero. -/
def phaseIndex (len : Nat) (n : Int) : Int :=
  if n ≥ len then len + 1 else Int.tmod (n + len) len + 1

/-- `bsdconv_get_codec_index(ins, phasen, codecn)`, /repo/src/libbsdconv_util.c:128-143.
`codecs i` is the number of codecs of phase `i` (`codecn+1`); reading a phase outside `1..len` is
undefined (`none`). -/
def codecIndex (len : Nat) (codecs : Nat → Nat) (ph n : Int) : Option Int :=
  let p := phaseIndex len ph
  if 1 ≤ p ∧ p ≤ len then
    let k := codecs p.toNat
    some (if n ≥ k then k else Int.tmod (n + k) k)
  else none

/-- One entry of the argument list: `key`, and `ptr` (NULL = `none`).
`strchr(k,'=')`, cut, `ptr+=1`: /repo/src/libbsdconv.c:55-60 -/
def argEntry (k : Str) : Str × Option Str :=
  match strchr '=' k with
  | none => (k, none)
  | some (a, b) => (a, some b)

/-- The list `_cbcreate` passes to a codec's `cbcreate`, /repo/src/libbsdconv.c:41-71; `argv` NULL is the
empty string. -/
def parseArgs (argv : Option Str) : List (Str × Option Str) :=
  match argv.getD [] with
  | [] => []
  | s => (tokens '&' s).map argEntry
end Verif.Util
