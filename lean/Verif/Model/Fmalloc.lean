/-
Model of /repo/src/libfmalloc.c (compiled with USE_FMALLOC).  Addresses are natural numbers; the answers of
`mkstemp`, `mmap` and `malloc` are parameters.  Not modelled: the file behind a pool (`ftruncate`, `unlink`, `close`,
`msync`), the `malloc`ed list node of a pool, and failure of that `malloc`.
-/
namespace Verif.Fmalloc

/-- `FMALLOC_SIZE`, /repo/src/fmalloc.h:20 -/
def poolSize : Nat := 256 * 1024 * 1024
/-- `FMALLOC_NUM`, /repo/src/fmalloc.h:21 -/
def maxPools : Nat := 6
/-- `SIZE_MAX + 1` -/
def sizeMod : Nat := 2 ^ 64

/-- `struct fmalloc_entry`, /repo/src/fmalloc.h:13-18, without `fd` and `next`. -/
structure Pool where
  z : Nat
  offset : Nat
  deriving DecidableEq, Repr

/-- `fmalloc_pools` (newest first) and `fmalloc_num`, /repo/src/libfmalloc.c:10-11 -/
structure St where
  pools : List Pool := []
  num : Nat := 0
  deriving DecidableEq, Repr

/-- Answers of the system calls during one `fmalloc`. -/
structure Sys where
  /-- did `mkstemp` succeed? -/
  mkstemp : Bool
  /-- `mmap` of `FMALLOC_SIZE` bytes; `none` = MAP_FAILED -/
  mmap : Option Nat
  /-- `malloc(s)`; `none` = NULL -/
  malloc : Option Nat
  deriving DecidableEq, Repr

/-- Result of `fmalloc`. -/
inductive Got
  /-- what `malloc` answered -/
  | heap (p : Option Nat)
  /-- an address in the newest pool -/
  | pool (p : Nat)
  deriving DecidableEq, Repr

/-- `o_offset=…; offset+=s; return z+o_offset`, /repo/src/libfmalloc.c:43-45 -/
def take (st : St) (s : Nat) : St × Got :=
  match st.pools with
  | p :: ps => ({ st with pools := { p with offset := (p.offset + s) % sizeMod } :: ps }, .pool (p.z + p.offset))
  | [] => (st, .heap none) -- not reached

/-- Is a new pool needed?  /repo/src/libfmalloc.c:19 (`size_t` arithmetic) -/
def needPool (st : St) (s : Nat) : Bool :=
  match st.pools with
  | [] => true
  | p :: _ => (p.offset + s) % sizeMod > poolSize

/-- `fmalloc`, /repo/src/libfmalloc.c:13-46 -/
def fmalloc (sys : Sys) (st : St) (s : Nat) : St × Got :=
  if needPool st s then
    if st.num < maxPools then
      if sys.mkstemp then
        match sys.mmap with
        | none => (st, .heap sys.malloc)
        | some m => take { pools := ⟨m, 0⟩ :: st.pools, num := st.num + 1 } s
      else (st, .heap sys.malloc)
    else (st, .heap sys.malloc)
  else take st s

/-- `fmfree`, /repo/src/libfmalloc.c:48-57: does it call `free(p)`? -/
def frees (st : St) (p : Nat) : Bool := !st.pools.any fun e => e.z ≤ p && p < e.z + e.offset

/-- `fmcleanup`, /repo/src/libfmalloc.c:67-76 (`fmalloc_num` keeps its value). -/
def cleanup (st : St) : St := { st with pools := [] }

end Verif.Fmalloc
