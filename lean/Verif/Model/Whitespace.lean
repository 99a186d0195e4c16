import Verif.Model.Range
import Verif.Model.Engine
/-
inter/WHITESPACE-DERAIL and inter/WHITESPACE-RERAIL: /repo/modules/inter/WHITESPACE-DERAIL.c, WHITESPACE-RERAIL.c,
WHITESPACE.h, both with the table `* ?`.

The two codecs share one record (found through the instance's hash table), and DERAIL sets flags in the record of the
phase RERAIL lives in.  This is outside what a phase of Model/Engine.lean can touch, so the two phases, with whatever
lies between them, are modelled here as a system of their own; the engine's part in it (what happens to the flags
after `cbconv` and at the end of the input) is copied from the engine model.
-/
namespace Verif.Whitespace
open Verif.Engine (Datum)

/-- `struct my_s`, /repo/modules/inter/WHITESPACE.h:3-9, with the flags of the phase `rerail` points to.
`last` is `t->last`: the number of queue nodes before the pointer it points to.  Offsets are not wrapped at
`SIZE_MAX`. -/
structure Shared where
  /-- `queue`: `(struct data_rt *) q->data` and `q->len` -/
  queue : List (Datum × Nat) := []
  last : Nat := 0
  offsetA : Nat := 0
  offsetB : Nat := 0
  /-- `rerail->flags & F_MATCH` -/
  fMatch : Bool := false
  /-- `rerail->flags & F_PENDING` -/
  fPending : Bool := false
  deriving DecidableEq

/-- `ucs==0x09||ucs==0x0A||ucs==0x0D||ucs==0x20` for a datum of type 1, WHITESPACE-DERAIL.c:60-65 -/
def isSpace (d : Datum) : Bool :=
  match d with
  | 1 :: bs => let ucs := Range.ucs bs; ucs == 0x09 || ucs == 0x0A || ucs == 0x0D || ucs == 0x20
  | _ => false

/-- `cbinit` of either codec, WHITESPACE-DERAIL.c:19-31, WHITESPACE-RERAIL.c:17-30; the flags are cleared by
`bsdconv_init`. -/
def init : Shared := {}

/-- DERAIL's `cbconv`, WHITESPACE-DERAIL.c:47-88: the data put out. -/
def derail (t : Shared) (d : Datum) : Shared × List Datum :=
  if isSpace d then
    ({ t with
        queue := t.queue.take t.last ++ [(d, t.offsetA)]     -- *(t->last)=q; q->next=NULL
        last := t.last + 1                                   -- t->last=&q->next
        fMatch := true
        fPending := true }, [])
  else ({ t with offsetA := t.offsetA + 1 }, [d])

/-- The loop `while(t->queue && t->queue->len<=t->offsetB)`, WHITESPACE-RERAIL.c:73-82, 89-98; `&t->queue->next==t->last`
is `last = 1`. -/
def drain (off : Nat) : (queue : List (Datum × Nat)) → (last : Nat) → List (Datum × Nat) × Nat × List Datum
  | [], last => ([], last, [])
  | (d, n) :: q, last =>
    if n ≤ off then
      let r := drain off q (if last = 1 then 0 else last - 1)
      (r.1, r.2.1, d :: r.2.2)
    else ((d, n) :: q, last, [])

/-- RERAIL's `cbconv`, WHITESPACE-RERAIL.c:66-108, and the engine's `case NEXTPHASE:` that follows it
(/repo/src/libbsdconv.c:834-842), which clears the flags `cbconv` has just set. -/
def rerail (t : Shared) (d : Datum) : Shared × List Datum :=
  let r1 := drain t.offsetB t.queue t.last
  let off := t.offsetB + 1
  let r2 := drain off r1.1 r1.2.1
  let conv : Shared := { t with
    queue := r2.1
    last := r2.2.1
    offsetB := off
    fMatch := !r2.1.isEmpty
    fPending := !r2.1.isEmpty }
  ({ conv with fMatch := false, fPending := false }, r1.2.2 ++ d :: r2.2.2)

/-- RERAIL's `cbflush`, WHITESPACE-RERAIL.c:48-64 -/
def cbflush (t : Shared) : Shared × List Datum :=
  ({ t with queue := [], last := if t.queue = [] then t.last else t.last - t.queue.length }, t.queue.map Prod.fst)

/-- The end of the input reaches RERAIL's phase: nothing unless it is pending, otherwise `inter_deadend`
(/repo/src/libbsdconv.c:757-772), with `match_data==NULL`. -/
def flush (t : Shared) : Shared × List Datum :=
  if t.fPending then
    let t := { t with fPending := false }
    if t.fMatch then
      let r := cbflush t
      ({ r.1 with fMatch := false }, r.2)
    else (t, [])
  else (t, [])

/-- The two phases and what is on its way between them. -/
structure Sys where
  t : Shared := init
  /-- data DERAIL has put out and RERAIL has not seen yet -/
  way : List Datum := []
  /-- what RERAIL has put out -/
  out : List Datum := []
  deriving DecidableEq

/-- What can happen. -/
inductive Event
  /-- DERAIL is given a datum -/
  | derail (d : Datum)
  /-- the oldest datum on its way has been turned into `r` by the phases in between and reaches RERAIL -/
  | rerail (r : List Datum)
  /-- the end of the input reaches RERAIL -/
  | flush
  deriving DecidableEq

/-- Feeding RERAIL several data. -/
def rerailAll (t : Shared) : List Datum → Shared × List Datum
  | [] => (t, [])
  | d :: ds =>
    let r := rerail t d
    let r' := rerailAll r.1 ds
    (r'.1, r.2 ++ r'.2)

/-- One event. -/
def Sys.step (s : Sys) : Event → Sys
  | .derail d => let r := Whitespace.derail s.t d; { s with t := r.1, way := s.way ++ r.2 }
  | .rerail ds => let r := rerailAll s.t ds; { s with t := r.1, way := s.way.tail, out := s.out ++ r.2 }
  | .flush => let r := Whitespace.flush s.t; { s with t := r.1, out := s.out ++ r.2 }

/-- A history. -/
def Sys.run (s : Sys) (es : List Event) : Sys := es.foldl Sys.step s

end Verif.Whitespace
