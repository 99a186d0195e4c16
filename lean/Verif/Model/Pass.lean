import Verif.Model.Output

/-
Buffer ownership and node reuse: `DATUM_FREE`, `DATA_MALLOC`, `dup_data_rt`
(/repo/src/bsdconv.h:281-282, 353-361) and the PASS branch of the output switch
(/repo/src/libbsdconv.c:1095-1114).
-/

namespace Verif.Pass

/-- A `struct data_rt` node: address `id`, payload pointer `buf` with its bytes, and `flags & F_FREE`. -/
structure Node where
  id : Nat
  buf : Nat
  bytes : List Nat
  own : Bool
  deriving DecidableEq, Repr

/-- Node memory of one instance: its free pool and the next address `malloc` returns, plus a log of
payload buffers handed to `free()`. -/
structure Mem where
  pool : List Node := []
  freed : List Nat := []
  deriving DecidableEq, Repr

/-- `DATUM_FREE(INS, X)`: /repo/src/bsdconv.h:281 -/
def Mem.datumFree (m : Mem) (n : Node) : Mem :=
  { pool := n :: m.pool, freed := if n.own then n.buf :: m.freed else m.freed }

/-- `DATA_MALLOC(INS, X)`: /repo/src/bsdconv.h:353: an id from the pool, or the fresh address `fresh`. -/
def Mem.alloc (m : Mem) (fresh : Nat) : Nat × Nat × Mem :=
  match m.pool with
  | n :: p => (n.id, fresh, { m with pool := p })
  | [] => (fresh, fresh + 1, m)

/-- The `while` loop of the PASS branch, /repo/src/libbsdconv.c:1106-1112: every remaining datum is
duplicated into a node of the receiving instance (the original gives up ownership in `dup_data_rt`) and
released.  `fresh`: next address of `malloc`. -/
def passLoop : List Node → (src dst : Mem) → (fresh : Nat) → List Node × Mem × Mem × Nat
  | [], src, dst, fresh => ([], src, dst, fresh)
  | n :: ns, src, dst, fresh =>
    let (id, fresh, dst) := dst.alloc fresh
    let copy : Node := { n with id := id }
    let n' : Node := { n with own := false }
    let r := passLoop ns (src.datumFree n') dst fresh
    (copy :: r.1, r.2)

/-- The PASS branch, /repo/src/libbsdconv.c:1095-1114.  Result: the receiving instance's `input` as a chain
(`none`: untouched) and both memories; the sending list is empty afterwards.  The first datum is copied
into the `input` struct itself (written as node 0 here). -/
def pass (q : List Node) (src dst : Mem) (fresh : Nat) : Option (List Node) × Mem × Mem × Nat :=
  match q with
  | [] => (none, src, dst, fresh)
  | n :: ns =>
    let src := src.datumFree { n with own := false }
    let r := passLoop ns src dst fresh
    (some ({ n with id := 0 } :: r.1), r.2)

/-! Node pool: addresses only. -/

/-- Addresses in use: a pool and any number of lists. -/
structure Addr where
  pool : List Nat
  lists : List (List Nat)
  fresh : Nat
  deriving DecidableEq, Repr

/-- Operations on nodes performed by the engine: append a node at the end of list `j`
(`DATA_MALLOC(ins, tail->next)`), release the first node of list `j` (`LISTFREE`, `DATUM_FREE`), move the
first node of list `j` to the end of list `k` (inter pass-through, /repo/src/libbsdconv.c:780-798). -/
inductive AOp
  | alloc (j : Nat)
  | release (j : Nat)
  | move (j k : Nat)
  deriving DecidableEq, Repr

/-- One operation; list numbers out of range and empty lists leave the state unchanged. -/
def Addr.step (a : Addr) : AOp → Addr
  | .alloc j =>
    if j < a.lists.length then
      match a.pool with
      | x :: p => { a with pool := p, lists := a.lists.modify j (· ++ [x]) }
      | [] => { a with fresh := a.fresh + 1, lists := a.lists.modify j (· ++ [a.fresh]) }
    else a
  | .release j =>
    match a.lists[j]? with
    | some (x :: r) => { a with pool := x :: a.pool, lists := a.lists.set j r }
    | _ => a
  | .move j k =>
    if k < a.lists.length then
      match a.lists[j]? with
      | some (x :: r) => { a with lists := (a.lists.set j r).modify k (· ++ [x]) }
      | _ => a
    else a

end Verif.Pass
