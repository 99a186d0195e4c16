import Verif.Model.Engine
/-
Codecs with a `cbconv` callback: the shapes of callback found in /repo/modules, and how they plug into the
engine model.
-/
namespace Verif.Engine

/-- A decoder whose `cbconv` is `for(;i<curr->len;i+=1){ d=curr->data[i]; switch(t->status){…} }` with a final
`state.status=CONTINUE`: one iteration maps private data and a byte to new private data, the data appended
and — if the iteration ends in `return` — the status set. -/
structure Machine (σ : Type) where
  step : σ → Nat → σ × List Datum × Option Status

/-- Result of running the loop over some bytes. -/
inductive Fed (σ : Type)
  /-- all bytes used up, the loop wants more -/
  | more (t : σ) (out : List Datum)
  /-- returned after `used` bytes -/
  | ret (used : Nat) (t : σ) (out : List Datum) (status : Status)
  deriving DecidableEq

/-- The loop of `cbconv` from private state `t` over the bytes that follow. -/
def Machine.feed {σ : Type} (m : Machine σ) (t : σ) : List Nat → Fed σ
  | [] => .more t []
  | d :: ds =>
    match m.step t d with
    | (t', out, some st) => .ret 1 t' out st
    | (t', out, none) =>
      match m.feed t' ds with
      | .more t'' out' => .more t'' (out ++ out')
      | .ret k t'' out' st => .ret (k + 1) t'' (out ++ out') st

/-- `cbconv` of such a decoder as a callback of the engine.  `i` stays on the byte at which the loop
returned. -/
def Machine.conv {σ : Type} (m : Machine σ) (l : Loc σ) : Loc σ :=
  let j := l.ph.index
  let put := fun t => fun k => if k = j then t else l.ph.priv k
  match m.feed (l.ph.priv j) ((l.prev.get l.ph.curr).drop l.ph.i) with
  | .more t out => { l with ph := { l.ph with
      priv := put t, q := l.ph.q.pushAll out, status := .cont, i := (l.prev.get l.ph.curr).length } }
  | .ret k t out st => { l with ph := { l.ph with
      priv := put t, q := l.ph.q.pushAll out, status := st, i := l.ph.i + (k - 1) } }

/-- The table `* ?` (one wildcard symbol, callback): /repo/modules/from/_UTF-8.txt, UTF-16BE.txt, …  A wildcard
covers the separator 256 too (/repo/src/bsdconv-mktable.c:347-349). -/
def anyByte {π : Type} (conv : Loc π → Loc π) (flush : Option (Loc π → Loc π) := none) : Codec π where
  next := fun o c => if o = 0 ∧ c ≤ 256 then 1 else 0
  status := fun o => if o = 1 then .subroutine else .deadend
  data := fun _ => []
  conv := conv
  flush := flush

/-- The table `01* ?` (01 and one wildcard symbol, callback): /repo/modules/to/_UTF-8.txt, …  Because a wildcard
covers the separator too, the one-byte datum `01` reaches the callback node when its separator is fed. -/
def uniPrefix {π : Type} (conv : Loc π → Loc π) : Codec π where
  next := fun o c => if o = 0 ∧ c = 1 then 1 else if o = 1 ∧ c ≤ 256 then 2 else 0
  status := fun o => if o = 1 then .cont else if o = 2 then .subroutine else .deadend
  data := fun _ => []
  conv := conv

/-- `cbconv` of an encoder that looks at one datum: `none` = DEADEND, otherwise the data appended and
NEXTPHASE. -/
def encodeConv {π : Type} (f : Datum → Option (List Datum)) (l : Loc π) : Loc π :=
  match f (l.prev.get l.ph.curr) with
  | none => { l with ph := { l.ph with status := .deadend } }
  | some out => { l with ph := { l.ph with q := l.ph.q.pushAll out, status := .nextphase } }

end Verif.Engine
