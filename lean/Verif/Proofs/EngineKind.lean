import Verif.Proofs.EngineLift

/-! What the main loop needs to know about a phase, whatever its codecs are: an invariant with a few laws.
Table phases, callback phases and decoding machines are instances. -/

namespace Verif.Engine
open Verif.Spec

variable {π : Type}

/-- What a phase will still do, as a function of all the input it has not converted yet. -/
structure Beh (π : Type) where
  /-- the data it will put out -/
  out : List Datum → List Datum
  /-- decoding errors -/
  inE : List Datum → Nat
  /-- encoding errors -/
  outE : List Datum → Nat
  /-- number of decisions, and of empty data put out -/
  toks : List Datum → Nat
  /-- what is known of its private data in the end -/
  fin : List Datum → (Nat → π) → Prop
  congr : ∀ {a b : List Datum}, nonEmpty a = nonEmpty b →
    out a = out b ∧ inE a = inE b ∧ outE a = outE b ∧ toks a = toks b ∧ fin a = fin b

/-- A phase `l` with invariant `Inv`, behaviour `F`, input `rem` at hand and input `fut` to come: a visit
that decided nothing. -/
structure Quiet (Inv : Beh π → Loc π → List Datum → List Datum → Prop) (dec : Bool) (pads rank : Loc π → Nat)
    (F : Beh π) (l l' : Loc π) (rem fut : List Datum) : Prop where
  inv : Inv F l' rem fut
  q : l'.ph.q = l.ph.q
  ierr : l'.ierr = l.ierr
  oerr : l'.oerr = l.oerr
  head : l'.prevHeadLen = l.prevHeadLen
  consumed : dec = false → l'.ph.consumed = l.ph.consumed
  plen : dec = true → l'.prev.items.length ≤ l.prev.items.length
  pads : pads l' ≤ pads l
  rank : rank l' ≤ rank l

/-- A visit that converted a piece of the input. -/
structure Decide (Inv : Beh π → Loc π → List Datum → List Datum → Prop) (dec : Bool) (pads : Loc π → Nat)
    (F : Beh π) (l l' : Loc π) (rem fut : List Datum)
    (F' : Beh π) (rem' em : List Datum) : Prop where
  inv : Inv F' l' rem' fut
  q : l'.ph.q = l.ph.q.pushAll em
  bytes : ∀ d ∈ em, IsBytes d
  head : l'.prevHeadLen = l.prevHeadLen
  consumed : dec = false → l'.ph.consumed = l.ph.consumed
  plen : dec = true → l'.prev.items.length ≤ l.prev.items.length
  inErr_le : F'.inE (rem' ++ fut) ≤ F.inE (rem ++ fut)
  out : nonEmpty (F.out (rem ++ fut)) = nonEmpty em ++ nonEmpty (F'.out (rem' ++ fut))
  ierr : l'.ierr + F'.inE (rem' ++ fut) = l.ierr + F.inE (rem ++ fut)
  oerr : l'.oerr + F'.outE (rem' ++ fut) = l.oerr + F.outE (rem ++ fut)
  fin : F'.fin (rem' ++ fut) = F.fin (rem ++ fut)
  measure : (F'.toks (rem' ++ fut) + 1 + empties em ≤ F.toks (rem ++ fut) ∧ pads l' ≤ pads l + 1) ∨
    (F'.toks (rem' ++ fut) = F.toks (rem ++ fut) ∧ pads l' + 1 ≤ pads l ∧ empties em ≤ 1)

/-- Control after a decision. -/
def DCtl (t : PType) (ctl : Ctl) : Prop := ctl = .goto .begin ∨ ctl = .goto t.outer ∨ ctl = .nextBegin

/-- A kind of phase. -/
structure Kind (s : Static π) where
  Inv : Beh π → Loc π → List Datum → List Datum → Prop
  dec : Bool
  pads : Loc π → Nat
  rank : Loc π → Nat
  qok : ∀ {F l rem fut}, Inv F l rem fut → l.ph.q.Ok ∧ l.prev.Ok ∧ l.ph.curr ≤ l.prev.items.length
  visit : ∀ {F l rem fut}, Inv F l rem fut →
    (∃ l' ctl, LReach s s.type.outer l l' ctl ∧ (ctl = .goto .leave ∨ ctl = .nextBegin) ∧
      Quiet Inv dec pads rank F l l' rem fut ∧ (l.ph.curr < l.prev.items.length → rank l' < rank l) ∧
      (ctl = .nextBegin → l.ph.curr < l.prev.items.length)) ∨
    (∃ l' ctl F' rem' em, LReach s s.type.outer l l' ctl ∧ DCtl s.type ctl ∧
      Decide Inv dec pads F l l' rem fut F' rem' em)
  flush : ∀ {F l rem fut}, Inv F l rem fut → nonEmpty fut = [] → l.ph.curr = l.prev.items.length →
    l.ph.fPending = true →
    (∃ l' ctl, LReach s s.type.dead l l' ctl ∧ (ctl = .goto .leave ∨ ctl = .nextBegin) ∧
      Quiet Inv dec pads rank F l l' rem fut ∧ rank l' < rank l) ∨
    (∃ l' ctl F' rem' em, LReach s s.type.dead l l' ctl ∧ DCtl s.type ctl ∧
      Decide Inv dec pads F l l' rem fut F' rem' em)
  /-- data appended to the queue move from the future to the present -/
  append : ∀ {F l l' rem fut em fut'}, Inv F l rem fut → nonEmpty fut = nonEmpty em ++ nonEmpty fut' →
    l'.prev = l.prev.pushAll em → l'.ph = l.ph → (dec = true → l'.prevHeadLen = l.prevHeadLen) →
    (∀ d ∈ em, IsBytes d) →
    (dec = true → F.inE (rem ++ fut) = 0 ∨ (l.prev.items ++ em).length ≤ 1) →
    Inv F l' (rem ++ em) fut'
  /-- the phase's own queue and the counters do not matter -/
  frame : ∀ {F l l' rem fut}, Inv F l rem fut → l'.prev = l.prev → l'.ph.q.Ok →
    l'.ph = { l.ph with q := l'.ph.q } → (dec = true → l'.prevHeadLen = l.prevHeadLen) → Inv F l' rem fut
  rank_frame : ∀ {l l'}, l'.prev = l.prev → l'.ph = { l.ph with q := l'.ph.q } → rank l' = rank l
  pads_frame : ∀ {l l'}, l'.prev = l.prev → l'.ph = { l.ph with q := l'.ph.q } → pads l' = pads l
  pads_append : ∀ {F l l' rem fut em}, Inv F l rem fut → l'.prev = l.prev.pushAll em → l'.ph = l.ph →
    pads l' ≤ pads l + empties em
  /-- everything read, nothing pending, nothing to come: everything is converted -/
  idle : ∀ {F l rem fut}, Inv F l rem fut → ¬ l.ph.curr < l.prev.items.length → l.ph.fPending = false →
    nonEmpty fut = [] → nonEmpty (F.out (rem ++ fut)) = [] ∧ F.inE (rem ++ fut) = 0 ∧
      F.outE (rem ++ fut) = 0 ∧ F.fin (rem ++ fut) l.ph.priv
  noIn : dec = false → ∀ {F l rem fut}, Inv F l rem fut → F.inE (rem ++ fut) = 0

end Verif.Engine
