import Verif.Model.Str
/-
Model of /repo/src/libbsdconv_counter.c.  The singly linked list of entries is a `List`; entries are
never removed or moved, so the address of an entry's `val` is its position.
-/
namespace Verif.Counter

/-- `struct bsdconv_counter_entry` list hanging off `ins->counter`. -/
abbrev State := List (Str × Nat)

/-- The search loop of `bsdconv_counter`, libbsdconv_counter.c:13-21 with the append of lines 22-27
(and 6-11 for the empty list): the new list and the position of the returned cell. -/
def find (key : Str) : State → State × Nat
  | [] => ([(key, 0)], 0)
  | e :: es => if e.1 = key then (e :: es, 0) else let r := find key es; (e :: r.1, r.2 + 1)

/-- `bsdconv_counter(ins, _key)`, libbsdconv_counter.c:1-29: new state and returned pointer. -/
def counter (s : State) (key : Str) : State × Nat := find (strtoupper key) s

/-- Reading through a pointer returned by `bsdconv_counter` (`none` = no such cell). -/
def load (s : State) (p : Nat) : Option Nat := (s[p]?).map (·.2)

/-- Writing through a pointer returned by `bsdconv_counter`. -/
def store (s : State) (p : Nat) (v : Nat) : State := s.modify p (fun e => (e.1, v))

/-- `bsdconv_counter_reset(ins, key)`, libbsdconv_counter.c:31-43; `none` = NULL. -/
def reset (s : State) : Option Str → State
  | none => s.map fun e => (e.1, 0)
  | some key => let r := counter s key; store r.1 r.2 0

/-- What callers do with counters. -/
inductive Op
  /-- `bsdconv_counter(ins, key)` -/
  | get (key : Str)
  /-- `*bsdconv_counter(ins, key) = v` -/
  | set (key : Str) (v : Nat)
  /-- `*p = v` through a pointer obtained earlier -/
  | put (p : Nat) (v : Nat)
  /-- `bsdconv_counter_reset(ins, key)` -/
  | reset (key : Option Str)

/-- One operation. -/
def step (s : State) : Op → State
  | .get k => (counter s k).1
  | .set k v => let r := counter s k; store r.1 r.2 v
  | .put p v => store s p v
  | .reset k => reset s k

/-- A history of operations. -/
def run (s : State) (ops : List Op) : State := ops.foldl step s
end Verif.Counter
