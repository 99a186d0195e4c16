import Verif.Model.Str
/-
Model of /repo/src/libbsdconv_hash.c at the level of list cells: a cell that was `free`d but is still
linked is kept with `live = false`; looking at it is undefined behaviour (`none`).
Values (`void *ptr`) are `Nat`s, NULL is 0.
-/
namespace Verif.Hash

/-- `struct bsdconv_hash_entry`, /repo/src/bsdconv.h -/
structure Cell where
  key : Str
  ptr : Nat
  live : Bool := true
  deriving DecidableEq, Repr

/-- The list hanging off `ins->hash`. -/
abbrev State := List Cell

/-- `while(p!=NULL){ if(strcmp(p->key, key)==0) … p=p->next; }`: position of the first cell with that
key, `some none` if there is none; `none` = a freed cell is read. -/
def search (key : Str) : State → Option (Option Nat)
  | [] => some none
  | c :: cs =>
    if c.live = false then none
    else if c.key = key then some (some 0)
    else (search key cs).map fun r => r.map (· + 1)

/-- The exchange of the found cell's contents with the head's (the `tk/tp` dance), with `tp` the value
stored into the head: `p->key=ins->hash->key; p->ptr=ins->hash->ptr; ins->hash->key=tk;
ins->hash->ptr=tp`. -/
def exchange (s : State) (p : Nat) (tk : Str) (tp : Nat) : State :=
  match s with
  | [] => []
  | h :: t =>
    let s1 := (h :: t).modify p fun c => { c with key := h.key, ptr := h.ptr }
    s1.modify 0 fun c => { c with key := tk, ptr := tp }

/-- `bsdconv_hash_set`, libbsdconv_hash.c:1-23 -/
def set (s : State) (key : Str) (ptr : Nat) : Option State :=
  match search key s with
  | none => none
  | some (some p) => some (exchange s p key ptr)
  | some none => some ({ key := key, ptr := ptr } :: s)

/-- `bsdconv_hash_get`, libbsdconv_hash.c:25-42: new state and returned pointer — `return p->ptr` is
evaluated after the exchange. -/
def get (s : State) (key : Str) : Option (State × Nat) :=
  match search key s with
  | none => none
  | some (some p) =>
    match s[p]? with
    | none => none
    | some c =>
      let s' := exchange s p key c.ptr
      some (s', ((s'[p]?).map (·.ptr)).getD 0)
  | some none => some (s, 0)

/-- `bsdconv_hash_has`, libbsdconv_hash.c:44-61 -/
def has (s : State) (key : Str) : Option (State × Bool) :=
  match search key s with
  | none => none
  | some (some p) =>
    match s[p]? with
    | none => none
    | some c => some (exchange s p key c.ptr, true)
  | some none => some (s, false)

/-- `bsdconv_hash_del`, libbsdconv_hash.c:63-76.  For the head `*q=p->next` unlinks the cell.  Later
cells are reached with `p=p->next; q=&p->next`, so `q` is the found cell's own `next` field: `*q=p->next`
changes nothing and the freed cell stays linked. -/
def del (s : State) (key : Str) : Option State :=
  match search key s with
  | none => none
  | some (some 0) => some s.tail
  | some (some (p + 1)) => some (s.modify (p + 1) fun c => { c with live := false })
  | some none => some s

/-- Operations of the hash API. -/
inductive Op
  | set (key : Str) (ptr : Nat) | get (key : Str) | has (key : Str) | del (key : Str)

/-- One operation; the second component is what it returns (`set`/`del`: nothing, shown as 0). -/
def step (s : State) : Op → Option (State × Nat)
  | .set k v => (set s k v).map fun s' => (s', 0)
  | .get k => get s k
  | .has k => (has s k).map fun r => (r.1, if r.2 then 1 else 0)
  | .del k => (del s k).map fun s' => (s', 0)

/-- A history: final state and the returned values; `none` = undefined behaviour on the way. -/
def run (s : State) : List Op → Option (State × List Nat)
  | [] => some (s, [])
  | o :: os =>
    match step s o with
    | none => none
    | some (s1, r) => (run s1 os).map fun x => (x.1, r :: x.2)
end Verif.Hash
