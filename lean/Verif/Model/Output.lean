import Verif.Model.Engine

/-
The output switch at the end of `bsdconv()`, /repo/src/libbsdconv.c:1016-1130, and whole calls.
Buffer ownership (`F_FREE`) and PASS mode are in Model/Pass.lean.
-/

namespace Verif.Engine

/-- `ins->output_mode` with the caller's `output.len` where it matters
(/repo/src/bsdconv.h, `BSDCONV_HOLD` ..). -/
inductive Mode
  | hold
  /-- `reserve` is the caller's `output.len`: that many bytes are allocated in addition -/
  | automalloc (reserve : Nat)
  /-- caller's buffer of `cap` bytes; `none` = `output.data==NULL || output.len==0` -/
  | premalloced (cap : Option Nat)
  | file
  | fd
  | null
  deriving DecidableEq, Repr

/-- What the caller observes. -/
structure Delivery where
  /-- bytes copied to the caller's buffer, file or descriptor, or to the allocated buffer -/
  bytes : List Nat
  /-- `ins->output.len` afterwards (`none`: not written) -/
  len : Option Nat
  /-- size of the buffer allocated by AUTOMALLOC -/
  alloc : Nat := 0
  deriving DecidableEq, Repr

/-- The PREMALLOCED copy loop, /repo/src/libbsdconv.c:1046-1056: `room` = `output.len - i`.
Result: copied bytes and the remaining list. -/
def copyFit : List Datum → Nat → Nat → List Nat × List Datum × Nat
  | [], tail, _ => ([], [], tail)
  | d :: ds, tail, room =>
    if d.length ≤ room then
      let r := copyFit ds (tail - 1) (room - d.length)
      (d ++ r.1, r.2)
    else ([], d :: ds, tail)

/-- Output switch; `headLen` is `last_phase->data_head->len`, which the size query of PREMALLOCED also
adds up (the loop starts at `data_head`). /repo/src/libbsdconv.c:1018-1098 -/
def deliver (m : Mode) (q : Queue) (headLen : Nat) : Delivery × Queue :=
  match m with
  | .hold => ({ bytes := [], len := some 0 }, q)
  | .automalloc r =>
    ({ bytes := q.items.flatten, len := some (r + q.items.flatten.length - r),
       alloc := r + q.items.flatten.length }, Queue.empty)
  | .premalloced (some cap) =>
    let r := copyFit q.items q.tail cap
    ({ bytes := r.1, len := some r.1.length }, ⟨r.2.1, r.2.2⟩)
  | .premalloced none =>
    ({ bytes := [], len := some (headLen + q.items.flatten.length) }, q)
  | .file => ({ bytes := q.items.flatten, len := none }, Queue.empty)
  | .fd => ({ bytes := q.items.flatten, len := none }, Queue.empty)
  | .null => ({ bytes := [], len := none }, Queue.empty)

section
variable {π : Type}

/-- Replace the list of the last phase. -/
def Ins.setLast (ins : Ins π) (q : Queue) : Ins π :=
  { ins with ph := fun j => if j = ins.phasen then { ins.ph j with q := q } else ins.ph j }

/-- What the caller passes to one `bsdconv()` call: `input.data/len` (`none` = NULL), `flush`, mode. -/
structure Arg where
  input : Option Datum
  flush : Bool
  mode : Mode
  deriving DecidableEq, Repr

/-- One complete call: the engine runs from its start to its end, then the output switch. -/
def Call (st : Nat → Static π) (ins : Ins π) (a : Arg) (d : Delivery) (ins' : Ins π) : Prop :=
  ∃ m ins1, run st m (ins.start (a.input.map (fun x => (x, []))) a.flush) = (ins1, .done) ∧
    d = (deliver a.mode (ins1.ph ins1.phasen).q (ins1.ph ins1.phasen).consumed).1 ∧
    ins' = ins1.setLast (deliver a.mode (ins1.ph ins1.phasen).q (ins1.ph ins1.phasen).consumed).2

/-- A sequence of calls. -/
inductive Session (st : Nat → Static π) : Ins π → List Arg → List Delivery → Ins π → Prop
  | nil (ins : Ins π) : Session st ins [] [] ins
  | cons {ins ins1 ins2 : Ins π} {a : Arg} {as : List Arg} {d : Delivery} {ds : List Delivery} :
      Call st ins a d ins1 → Session st ins1 as ds ins2 → Session st ins (a :: as) (d :: ds) ins2

/-- Output pending on the instance. -/
def Ins.pending (ins : Ins π) : List Datum := (ins.ph ins.phasen).q.items
end

end Verif.Engine
