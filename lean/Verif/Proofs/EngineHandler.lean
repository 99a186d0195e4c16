import Verif.Proofs.EngineSession
import Verif.Model.Callback

/-! Phases made of codecs that work datum by datum, as a kind of phase. -/

namespace Verif.Engine
open Verif.Spec

variable {π : Type}

/-! ### The behaviour -/

/-- Decisions and empty data put out. -/
def handleToks (pass : Bool) (hs : Nat → Handler π) (n : Nat) : (w : Option Nat) → (Nat → π) → List Datum → Nat
  | none, _, [] => 0
  | some j, p, [] => 1 + empties ((hs j).flush (p j)).2
  | w, p, d :: ds =>
    match choose hs n p d w with
    | some (j, t, out, hold) =>
      1 + empties out + handleToks pass hs n (if hold then some j else none) (setPriv p j t) ds
    | none => 1 + handleToks pass hs n none p ds

/-- What a phase of handlers will do. -/
def hbeh (pass : Bool) (hs : Nat → Handler π) (n : Nat) (w : Option Nat) (p : Nat → π) : Beh π where
  out := fun ds => (handle pass hs n w p (nonEmpty ds)).out
  inE := fun _ => 0
  outE := fun ds => if pass then 0 else (handle pass hs n w p (nonEmpty ds)).refused
  toks := fun ds => handleToks pass hs n w p (nonEmpty ds)
  fin := fun ds q => q = (handle pass hs n w p (nonEmpty ds)).priv
  congr := by intro a b h; simp only [h, true_and]

theorem attempt_skip {hs : Nat → Handler π} {p : Nat → π} {d : Datum} {n j : Nat} (hj : j ≤ n)
    (h : ∀ i, i < j → (hs i).act (p i) d = none) : attempt hs p d 0 (n + 1) = attempt hs p d j (n + 1 - j) := by
  induction j with
  | zero => rfl
  | succ j ih =>
    rw [ih (by omega) (fun i hi => h i (by omega))]
    have e : n + 1 - j = (n + 1 - (j + 1)) + 1 := by omega
    rw [e, attempt, h j (by omega)]

theorem handle_cons (pass : Bool) (hs : Nat → Handler π) (n : Nat) (w : Option Nat) (p : Nat → π) (d : Datum) (ds : List Datum) :
    handle pass hs n w p (d :: ds) =
      (match choose hs n p d w with
      | some (j, t, out, hold) =>
        let r := handle pass hs n (if hold then some j else none) (setPriv p j t) ds
        { r with out := out ++ r.out }
      | none =>
        let r := handle pass hs n none p ds
        { r with out := (if pass then [d] else []) ++ r.out, refused := r.refused + 1 }) := by
  rw [handle]; rfl

theorem handleToks_cons (pass : Bool) (hs : Nat → Handler π) (n : Nat) (w : Option Nat) (p : Nat → π) (d : Datum) (ds : List Datum) :
    handleToks pass hs n w p (d :: ds) =
      (match choose hs n p d w with
      | some (j, t, out, hold) =>
        1 + empties out + handleToks pass hs n (if hold then some j else none) (setPriv p j t) ds
      | none => 1 + handleToks pass hs n none p ds) := by
  rw [handleToks]

/-! ### What one codec does with one datum, in the engine -/

/-- The codec with index `j` is about to be tried. -/
structure Start (j : Nat) (l : Loc π) : Prop where
  index : l.ph.index = j
  st : l.ph.st = 0
  loop : l.ph.fLoop = false
  fmatch : l.ph.fMatch = false
  pend : l.ph.fPending = false

/-- The codec with index `j` waits for another datum. -/
structure Held (j : Nat) (l : Loc π) : Prop where
  index : l.ph.index = j
  st : l.ph.st = 1
  offset : l.ph.offset = 1
  loop : l.ph.fLoop = true
  fmatch : l.ph.fMatch = true
  pend : l.ph.fPending = true
  data : l.ph.matchData = []

/-- The fields a visit leaves alone. -/
structure Kept (l l' : Loc π) : Prop where
  ierr : l'.ierr = l.ierr
  oerr : l'.oerr = l.oerr
  head : l'.prevHeadLen = l.prevHeadLen
  consumed : l'.ph.consumed = l.ph.consumed

/-- The datum under `curr` was taken for good. -/
structure Emitted (l l' : Loc π) (t : π) (out : List Datum) : Prop extends Kept l l' where
  prevOk : l'.prev.Ok
  ne : nonEmpty l'.prev.items = nonEmpty (l.prev.items.drop (l.ph.curr + 1))
  bytes : ∀ d ∈ l'.prev.items, d ∈ l.prev.items ∨ d = []
  emp : empties l'.prev.items ≤ empties l.prev.items + 1
  q : l'.ph.q = l.ph.q.pushAll out
  priv : l'.ph.priv = setPriv l.ph.priv l.ph.index t
  curr : l'.ph.curr = 0
  start : Start 0 l'

/-- The datum was taken and the codec waits for the next. -/
structure Holding (l l' : Loc π) (t : π) (out : List Datum) : Prop extends Kept l l' where
  prevOk : l'.prev.Ok
  items : l'.prev.items = l.prev.items ∨ l'.prev.items = l.prev.items ++ [[]]
  q : l'.ph.q = l.ph.q.pushAll out
  priv : l'.ph.priv = setPriv l.ph.priv l.ph.index t
  curr : l'.ph.curr = l.ph.curr + 1
  held : Held l.ph.index l'

/-- The datum was refused. -/
structure Refused (l l' : Loc π) : Prop extends Kept l l' where
  prev : l'.prev = l.prev
  q : l'.ph.q = l.ph.q
  priv : l'.ph.priv = l.ph.priv
  curr : l'.ph.curr = l.ph.curr + 1
  index : l'.ph.index = l.ph.index
  fmatch : l'.ph.fMatch = false

/-- The engine does what the handler's answer says. -/
def Post (s : Static π) (l : Loc π) : Option (π × List Datum × Bool) → Prop
  | none => ∃ l1, LReach s s.type.outer l l1 (.goto s.type.dead) ∧ Refused l l1
  | some (t, out, false) => ∃ l' ctl, LReach s s.type.outer l l' ctl ∧ DCtl s.type ctl ∧ Emitted l l' t out
  | some (t, out, true) => ∃ l', LReach s s.type.outer l l' (.goto s.type.outer) ∧ Holding l l' t out

/-- A handler that may wait for another datum. -/
def Holds (h : Handler π) : Prop := ∃ t d t' o, h.act t d = some (t', o, true)

/-- Codec `j` of phase `s` is the handler `h`, at least for data satisfying `D`. -/
structure Member (s : Static π) (j : Nat) (h : Handler π) (D : Datum → Prop := fun _ => True) : Prop where
  fresh : ∀ (l : Loc π), Start j l → l.prev.Ok → (∀ d ∈ l.prev.items, IsBytes d) →
    (hc : l.ph.curr < l.prev.items.length) → l.prev.items[l.ph.curr] ≠ [] → D l.prev.items[l.ph.curr] →
    Post s l (h.act (l.ph.priv j) l.prev.items[l.ph.curr])
  held : Holds h → ∀ (l : Loc π), Held j l → l.prev.Ok → (∀ d ∈ l.prev.items, IsBytes d) →
    (hc : l.ph.curr < l.prev.items.length) → l.prev.items[l.ph.curr] ≠ [] →
    h.act (l.ph.priv j) l.prev.items[l.ph.curr] ≠ none →
    Post s l (h.act (l.ph.priv j) l.prev.items[l.ph.curr])
  flush : Holds h → ∀ (l : Loc π), Held j l → ∃ l' ctl, LReach s s.type.dead l l' ctl ∧ DCtl s.type ctl ∧ Kept l l' ∧
    l'.prev = l.prev ∧ l'.ph.q = l.ph.q.pushAll (h.flush (l.ph.priv j)).2 ∧
    l'.ph.priv = setPriv l.ph.priv j (h.flush (l.ph.priv j)).1 ∧ l'.ph.curr = l.ph.curr ∧ Start 0 l'

theorem Member.mono {s : Static π} {j : Nat} {h : Handler π} {D E : Datum → Prop} (m : Member s j h D) (hd : ∀ d, E d → D d) :
    Member s j h E :=
  ⟨fun l a b c hc d e => m.fresh l a b c hc d (hd _ e), m.held, m.flush⟩

/-- A phase of handlers, with an invariant of their private data, for data satisfying `D`. -/
structure Handlers (s : Static π) (hs : Nat → Handler π) (I : Nat → π → Prop) (D : Datum → Prop := fun _ => True) : Prop where
  notFrom : s.type ≠ .from_
  member : ∀ j, j ≤ s.codecn → Member s j (hs j) D
  act : ∀ j t d, I j t → d ≠ [] → IsBytes d → ∀ t' out b, (hs j).act t d = some (t', out, b) →
    I j t' ∧ (∀ x ∈ out, IsBytes x) ∧ (b = true → ∀ d', d' ≠ [] → IsBytes d' → (hs j).act t' d' ≠ none)
  flush : ∀ j t, I j t → I j ((hs j).flush t).1 ∧ ∀ x ∈ ((hs j).flush t).2, IsBytes x

/-- Does the phase pass on what no codec takes? -/
def passes (s : Static π) : Bool := s.type == .inter

/-! ### The invariant -/

/-- What always holds. -/
structure HCore (s : Static π) (I : Nat → π → Prop) (l : Loc π) (rem : List Datum) : Prop where
  qOk : l.ph.q.Ok
  prevOk : l.prev.Ok
  bytes : ∀ d ∈ l.prev.items, IsBytes d
  currle : l.ph.curr ≤ l.prev.items.length
  remEq : nonEmpty rem = nonEmpty (l.prev.items.drop l.ph.curr)
  idx : l.ph.index ≤ s.codecn
  inv : ∀ j, I j (l.ph.priv j)

/-- Between data. -/
structure HIdle (s : Static π) (hs : Nat → Handler π) (F : Beh π) (l : Loc π) (rem fut : List Datum) : Prop where
  beh : F = hbeh (passes s) hs s.codecn none l.ph.priv
  start : Start l.ph.index l
  clean : nonEmpty (l.prev.items.take l.ph.curr) = [] ∨ nonEmpty rem ++ nonEmpty fut = []
  before : ∀ i, i < l.ph.index → ∃ d rest, nonEmpty rem = d :: rest ∧ (hs i).act (l.ph.priv i) d = none

/-- A codec waits. -/
structure HWait (s : Static π) (hs : Nat → Handler π) (F : Beh π) (l : Loc π) : Prop where
  beh : F = hbeh (passes s) hs s.codecn (some l.ph.index) l.ph.priv
  held : Held l.ph.index l
  can : Holds (hs l.ph.index)
  steady : ∀ d, d ≠ [] → IsBytes d → (hs l.ph.index).act (l.ph.priv l.ph.index) d ≠ none

/-- The invariant of a phase of handlers. -/
structure HInv (s : Static π) (hs : Nat → Handler π) (I : Nat → π → Prop) (D : Datum → Prop) (F : Beh π) (l : Loc π)
    (rem fut : List Datum) : Prop extends HCore s I l rem where
  mode : HIdle s hs F l rem fut ∨ HWait s hs F l
  dom : ∀ d ∈ nonEmpty rem ++ nonEmpty fut, D d

/-- Empty data in the queue. -/
def hpads (l : Loc π) : Nat := empties l.prev.items

/-- Progress measure. -/
def hrank (s : Static π) (l : Loc π) : Nat :=
  (s.codecn - l.ph.index) * (l.prev.items.length + 1) + (l.prev.items.length - l.ph.curr)

abbrev HQuiet (s : Static π) (hs : Nat → Handler π) (I : Nat → π → Prop) (D : Datum → Prop) (F : Beh π) (l l' : Loc π)
    (rem fut : List Datum) : Prop := Quiet (HInv s hs I D) false hpads (hrank s) F l l' rem fut

abbrev HDecide (s : Static π) (hs : Nat → Handler π) (I : Nat → π → Prop) (D : Datum → Prop) (F : Beh π) (l l' : Loc π)
    (rem fut : List Datum) (F' : Beh π) (rem' em : List Datum) : Prop :=
  Decide (HInv s hs I D) false hpads F l l' rem fut F' rem' em

theorem Quiet.trans_h {s : Static π} {hs : Nat → Handler π} {I : Nat → π → Prop} {D : Datum → Prop} {F : Beh π} {a b c : Loc π}
    {rem fut : List Datum} (h : HQuiet s hs I D F a b rem fut) (k : HQuiet s hs I D F b c rem fut) :
    HQuiet s hs I D F a c rem fut :=
  ⟨k.inv, k.q.trans h.q, k.ierr.trans h.ierr, k.oerr.trans h.oerr, k.head.trans h.head,
    fun e => (k.consumed e).trans (h.consumed e), fun e => absurd e (by simp), Nat.le_trans k.pads h.pads,
    Nat.le_trans k.rank h.rank⟩

theorem Quiet.decide_h {s : Static π} {hs : Nat → Handler π} {I : Nat → π → Prop} {D : Datum → Prop} {F F' : Beh π} {a b c : Loc π}
    {rem fut rem' em : List Datum} (h : HQuiet s hs I D F a b rem fut) (k : HDecide s hs I D F b c rem fut F' rem' em) :
    HDecide s hs I D F a c rem fut F' rem' em := by
  refine ⟨k.inv, by rw [k.q, h.q], k.bytes, k.head.trans h.head, fun e => (k.consumed e).trans (h.consumed e),
    fun e => absurd e (by simp), k.inErr_le, k.out, by rw [k.ierr, h.ierr], by rw [k.oerr, h.oerr], k.fin, ?_⟩
  have := h.pads
  rcases k.measure with ⟨m1, m2⟩ | ⟨m1, m2, m3⟩
  · exact .inl ⟨m1, by omega⟩
  · exact .inr ⟨m1, by omega, m3⟩


theorem attempt_at {hs : Nat → Handler π} {p : Nat → π} {d : Datum} {n j : Nat} (hj : j ≤ n)
    (h : ∀ i, i < j → (hs i).act (p i) d = none) {r : π × List Datum × Bool} (ha : (hs j).act (p j) d = some r) :
    attempt hs p d 0 (n + 1) = some (j, r) := by
  rw [attempt_skip hj h]
  have e : n + 1 - j = (n - j) + 1 := by omega
  rw [e, attempt, ha]

theorem attempt_none {hs : Nat → Handler π} {p : Nat → π} {d : Datum} {n : Nat}
    (h : ∀ i, i ≤ n → (hs i).act (p i) d = none) : attempt hs p d 0 (n + 1) = none := by
  rw [attempt_skip (j := n) (Nat.le_refl _) (fun i hi => h i (by omega))]
  have e : n + 1 - n = 0 + 1 := by omega
  rw [e, attempt, h n (Nat.le_refl _)]; rfl

/-- Reading an empty datum. -/
theorem it_empty {s : Static π} (hn : s.type ≠ .from_) {l : Loc π} (hc : l.ph.curr < l.prev.items.length)
    (he : l.prev.items[l.ph.curr] = []) :
    ∃ ctl, LReach s s.type.outer l { l with ph := { l.ph with curr := l.ph.curr + 1, status := .nomatch, i := 0 } } ctl ∧
      (ctl = .goto s.type.outer ∨ ctl = .nextBegin) := by
  have hg : l.prev.get (l.ph.curr + 1) = [] := by
    simp [Queue.get, List.getD_eq_getElem?_getD, List.getElem?_eq_getElem hc, he]
  have hh : l.prev.hasNext l.ph.curr = true := by simp [Queue.hasNext, hc]
  cases ht : s.type with
  | from_ => exact absurd ht hn
  | inter =>
    refine ⟨.nextBegin, .cons (pc1 := .interSw)
      (l1 := { l with ph := { l.ph with curr := l.ph.curr + 1, status := .nomatch, i := 0 } }) rfl ?_ (.one rfl ?_), .inr rfl⟩
    · simp [PType.outer, localStep, itOuter, hh, hg, Ph.scan]
    · simp [localStep, interSw]
  | to_ =>
    refine ⟨.goto .toOuter, .cons (pc1 := .toSw)
      (l1 := { l with ph := { l.ph with curr := l.ph.curr + 1, status := .nomatch, i := 0 } }) rfl ?_ (.one rfl ?_), .inl rfl⟩
    · simp [PType.outer, localStep, itOuter, hh, hg, Ph.scan]
    · simp [localStep, toSw]

theorem drop_cons {ds : List Datum} {k : Nat} (h : k < ds.length) :
    nonEmpty (ds.drop k) = nonEmpty [ds[k]] ++ nonEmpty (ds.drop (k + 1)) := by
  rw [List.drop_eq_getElem_cons h, ← nonEmpty_append]; rfl

theorem hcore_next {s : Static π} {I : Nat → π → Prop} {l l' : Loc π} {rem rem' : List Datum} (h : HCore s I l rem)
    (hq : l'.ph.q.Ok) (hp : l'.prev.Ok) (hb : ∀ d ∈ l'.prev.items, d ∈ l.prev.items ∨ d = [])
    (hc : l'.ph.curr ≤ l'.prev.items.length) (hr : nonEmpty rem' = nonEmpty (l'.prev.items.drop l'.ph.curr))
    (hi : l'.ph.index ≤ s.codecn) (hI : ∀ j, I j (l'.ph.priv j)) : HCore s I l' rem' := by
  refine ⟨hq, hp, ?_, hc, hr, hi, hI⟩
  intro d hd
  rcases hb d hd with h1 | h1
  · exact h.bytes d h1
  · subst h1; intro b hb; simp at hb

theorem h_empty {s : Static π} {hs : Nat → Handler π} {I : Nat → π → Prop} {D : Datum → Prop} (hH : Handlers s hs I D) {F : Beh π} {l : Loc π}
    {rem fut : List Datum} (h : HInv s hs I D F l rem fut) (hc : l.ph.curr < l.prev.items.length)
    (he : l.prev.items[l.ph.curr] = []) :
    ∃ l' ctl, LReach s s.type.outer l l' ctl ∧ (ctl = .goto s.type.outer ∨ ctl = .nextBegin) ∧
      HQuiet s hs I D F l l' rem fut ∧ hrank s l' < hrank s l := by
  obtain ⟨ctl, h1, h2⟩ := it_empty hH.notFrom hc he
  refine ⟨_, ctl, h1, h2, ⟨⟨⟨h.qOk, h.prevOk, h.bytes, by simp only; omega, ?_, h.idx, h.inv⟩, ?_, h.dom⟩, rfl, rfl, rfl, rfl,
    fun _ => rfl, fun _ => Nat.le_refl _, Nat.le_refl _, ?_⟩, ?_⟩
  · rw [h.remEq, drop_cons hc, he]; rfl
  · rcases h.mode with m | m
    · left
      refine ⟨m.beh, ⟨rfl, m.start.st, m.start.loop, m.start.fmatch, m.start.pend⟩, ?_, m.before⟩
      rcases m.clean with k | k
      · left
        simp only
        rw [take_succ' hc, nonEmpty_append, k, he]; rfl
      · exact .inr k
    · right
      exact ⟨m.beh, ⟨rfl, m.held.st, m.held.offset, m.held.loop, m.held.fmatch, m.held.pend, m.held.data⟩, m.can, m.steady⟩
  · simp only [hrank]; omega
  · simp only [hrank]; omega

/-- A refusal, then the dead end of the phase. -/
theorem it_refused {s : Static π} (hn : s.type ≠ .from_) {l l1 : Loc π} (hr : Refused l l1) (hp : l.prev.Ok)
    (hc : l.ph.curr < l.prev.items.length) :
    (l.ph.index < s.codecn ∧ ∃ l2, LReach s s.type.dead l1 l2 (.goto s.type.outer) ∧ Kept l l2 ∧ l2.prev = l.prev ∧
      l2.ph.q = l.ph.q ∧ l2.ph.priv = l.ph.priv ∧ l2.ph.curr = 0 ∧ Start (l.ph.index + 1) l2) ∨
    (¬ l.ph.index < s.codecn ∧ passes s = true ∧ ∃ l2, LReach s s.type.dead l1 l2 .nextBegin ∧ Kept l l2 ∧
      l2.prev.items = l.prev.items.drop 1 ∧ l2.prev.Ok ∧ l2.ph.q = l.ph.q.pushAll (l.prev.items.take 1) ∧
      l2.ph.priv = l.ph.priv ∧ l2.ph.curr = 0 ∧ Start 0 l2) ∨
    (¬ l.ph.index < s.codecn ∧ passes s = false ∧ ∃ l2, LReach s s.type.dead l1 l2 (.goto s.type.outer) ∧
      l2.ierr = l.ierr ∧ l2.oerr = l.oerr + 1 ∧ l2.prevHeadLen = l.prevHeadLen ∧ l2.ph.consumed = l.ph.consumed ∧
      l2.prev.items = l.prev.items.drop (l.ph.curr + 1) ∧ l2.prev.Ok ∧ l2.ph.q = l.ph.q ∧
      l2.ph.priv = l.ph.priv ∧ l2.ph.curr = 0 ∧ Start 0 l2) := by
  obtain ⟨⟨k1, k2, k3, k4⟩, r1, r2, r3, r4, r5, r6⟩ := hr
  by_cases hi : l.ph.index < s.codecn
  · left
    refine ⟨hi, ?_⟩
    cases ht : s.type with
    | from_ => exact absurd ht hn
    | inter =>
      refine ⟨_, .one rfl (by simp only [PType.dead, localStep, interDead, r6, r5, hi, if_true, Bool.false_eq_true, if_false]; rfl), ?_⟩
      exact ⟨⟨k1, k2, k3, k4⟩, r1, r2, r3, rfl, ⟨rfl, rfl, rfl, rfl, rfl⟩⟩
    | to_ =>
      refine ⟨_, .one rfl (by simp only [PType.dead, localStep, toDead, r6, r5, hi, if_true, Bool.false_eq_true, if_false]; rfl), ?_⟩
      exact ⟨⟨k1, k2, k3, k4⟩, r1, r2, r3, rfl, ⟨rfl, rfl, rfl, rfl, rfl⟩⟩
  · right
    cases ht : s.type with
    | from_ => exact absurd ht hn
    | inter =>
      left
      refine ⟨hi, by simp [passes, ht], ?_⟩
      cases hit : l.prev.items with
      | nil => rw [hit] at hc; simp at hc
      | cons d ds =>
        have hit1 : l1.prev.items = d :: ds := by rw [r1, hit]
        refine ⟨_, .one rfl (by simp only [PType.dead, localStep, interDead, r6, r5, hi, if_false, Bool.false_eq_true, hit1]; rfl), ?_⟩
        refine ⟨⟨k1, k2, k3, k4⟩, rfl, ?_, ?_, r3, rfl, ⟨rfl, rfl, rfl, rfl, rfl⟩⟩
        · simp only [Queue.Ok]
          have : l1.prev.tail = (d :: ds).length := by rw [r1, ← hit]; exact hp
          rw [this]; simp
        · simp only [Ph.reset]; rw [r2]; rfl
    | to_ =>
      right
      refine ⟨hi, by simp [passes, ht], ?_⟩
      refine ⟨_, .one rfl (by simp only [PType.dead, localStep, toDead, r6, r5, hi, if_false, Bool.false_eq_true]; rfl), ?_⟩
      have hp1 : l1.prev.Ok := by rw [r1]; exact hp
      refine ⟨k1, by simp only; rw [k2], k3, k4, ?_, ?_, r2, r3, rfl, ⟨rfl, rfl, rfl, rfl, rfl⟩⟩
      · simp only [Ph.reset]
        rw [(Queue.listFree_ok hp1 _).2, r1, r4]; rfl
      · exact (Queue.listFree_ok hp1 _).1

theorem setPriv_inv {I : Nat → π → Prop} {p : Nat → π} {j : Nat} {t : π} (h : ∀ k, I k (p k)) (ht : I j t) :
    ∀ k, I k (setPriv p j t k) := by
  intro k
  unfold setPriv
  split
  · rename_i e; subst e; exact ht
  · exact h k

/-- The arithmetic of a datum taken by codec `j`, whatever the mode before. -/
theorem decide_taken {s : Static π} {hs : Nat → Handler π} {I : Nat → π → Prop} {D : Datum → Prop} {w : Option Nat} {l l' : Loc π}
    {rem fut rem' out : List Datum} {d : Datum} {j : Nat} {t : π} {b : Bool} {p : Nat → π}
    (hrem : nonEmpty rem = d :: nonEmpty rem')
    (hat : choose hs s.codecn p d w = some (j, t, out, b))
    (hk : Kept l l') (hq : l'.ph.q = l.ph.q.pushAll out) (hb : ∀ x ∈ out, IsBytes x)
    (hemp : empties l'.prev.items ≤ empties l.prev.items + 1)
    (hinv : HInv s hs I D (hbeh (passes s) hs s.codecn (if b then some j else none) (setPriv p j t)) l' rem' fut) :
    HDecide s hs I D (hbeh (passes s) hs s.codecn w p) l l' rem fut
      (hbeh (passes s) hs s.codecn (if b then some j else none) (setPriv p j t)) rem' out := by
  have hH : handle (passes s) hs s.codecn w p (nonEmpty (rem ++ fut)) =
      { handle (passes s) hs s.codecn (if b then some j else none) (setPriv p j t) (nonEmpty (rem' ++ fut)) with
        out := out ++ (handle (passes s) hs s.codecn (if b then some j else none) (setPriv p j t) (nonEmpty (rem' ++ fut))).out } := by
    rw [nonEmpty_append, hrem, List.cons_append, ← nonEmpty_append]
    rw [handle_cons, hat]
  have hT : handleToks (passes s) hs s.codecn w p (nonEmpty (rem ++ fut)) =
      1 + empties out + handleToks (passes s) hs s.codecn (if b then some j else none) (setPriv p j t) (nonEmpty (rem' ++ fut)) := by
    rw [nonEmpty_append, hrem, List.cons_append, ← nonEmpty_append]
    rw [handleToks_cons, hat]
  refine ⟨hinv, hq, hb, hk.head, fun _ => hk.consumed, fun e => absurd e (by simp), Nat.le_refl _, ?_, ?_, ?_, ?_, .inl ⟨?_, hemp⟩⟩
  · simp only [hbeh, hH]; rw [nonEmpty_append]
  · simp only [hbeh]; rw [hk.ierr]
  · simp only [hbeh, hH]; rw [hk.oerr]
  · simp only [hbeh, hH]
  · simp only [hbeh, hT]; omega

theorem handle_refused {pass : Bool} {hs : Nat → Handler π} {n : Nat} {p : Nat → π} {d : Datum} (ds : List Datum)
    (h : attempt hs p d 0 (n + 1) = none) :
    handle pass hs n none p (d :: ds) =
      { handle pass hs n none p ds with
        out := (if pass then [d] else []) ++ (handle pass hs n none p ds).out
        refused := (handle pass hs n none p ds).refused + 1 } ∧
    handleToks pass hs n none p (d :: ds) = 1 + handleToks pass hs n none p ds := by
  have h' : choose hs n p d none = none := h
  rw [handle_cons, handleToks_cons, h']; exact ⟨rfl, rfl⟩

theorem h_taken {s : Static π} {hs : Nat → Handler π} {I : Nat → π → Prop} {D : Datum → Prop} (hH : Handlers s hs I D) {w : Option Nat} {l : Loc π}
    {rem fut : List Datum} {p : Nat → π} (hpv : p = l.ph.priv)
    (hcore : HCore s I l rem) (hc : l.ph.curr < l.prev.items.length)
    (hne : l.prev.items[l.ph.curr] ≠ []) {r : π × List Datum × Bool}
    (ha : (hs l.ph.index).act (l.ph.priv l.ph.index) l.prev.items[l.ph.curr] = some r)
    (hat : choose hs s.codecn p l.prev.items[l.ph.curr] w = some (l.ph.index, r))
    (hpost : Post s l (some r)) (hdom : ∀ d ∈ nonEmpty rem ++ nonEmpty fut, D d) :
    ∃ l' ctl F' rem' em, LReach s s.type.outer l l' ctl ∧ DCtl s.type ctl ∧
      HDecide s hs I D (hbeh (passes s) hs s.codecn w p) l l' rem fut F' rem' em := by
  subst hpv
  obtain ⟨t, out, b⟩ := r
  have hdm : l.prev.items[l.ph.curr] ∈ l.prev.items := List.getElem_mem hc
  obtain ⟨i1, i2, i3⟩ := hH.act l.ph.index _ _ (hcore.inv _) hne (hcore.bytes _ hdm) t out b ha
  have hrem : ∀ rem', nonEmpty rem' = nonEmpty (l.prev.items.drop (l.ph.curr + 1)) →
      nonEmpty rem = l.prev.items[l.ph.curr] :: nonEmpty rem' := by
    intro rem' h
    rw [hcore.remEq, drop_cons hc, nonEmpty_cons hne, h]; rfl
  have hdom' : ∀ rem', nonEmpty rem' = nonEmpty (l.prev.items.drop (l.ph.curr + 1)) →
      ∀ d ∈ nonEmpty rem' ++ nonEmpty fut, D d := by
    intro rem' h d hd
    exact hdom d (by rw [hrem rem' h]; exact List.mem_cons_of_mem _ hd)
  cases b with
  | false =>
    obtain ⟨l', ctl, h1, h2, h3⟩ := hpost
    refine ⟨l', ctl, _, l'.prev.items, out, h1, h2, decide_taken (hrem _ h3.ne) hat h3.toKept h3.q i2 h3.emp ?_⟩
    refine ⟨hcore_next hcore ?_ h3.prevOk h3.bytes (by rw [h3.curr]; omega) (by rw [h3.curr]; rfl)
      (by rw [h3.start.index]; omega) (by rw [h3.priv]; exact setPriv_inv hcore.inv i1), .inl ?_, hdom' _ h3.ne⟩
    · rw [h3.q]; exact (Queue.pushAll_ok hcore.qOk _).1
    · refine ⟨by rw [h3.priv]; rfl, ?_, .inl (by rw [h3.curr]; rfl), ?_⟩
      · rw [h3.start.index]; exact h3.start
      · intro i hi; rw [h3.start.index] at hi; omega
  | true =>
    obtain ⟨l', h1, h3⟩ := hpost
    have hnei : nonEmpty (l.prev.items.drop (l.ph.curr + 1)) = nonEmpty (l'.prev.items.drop (l.ph.curr + 1)) := by
      rcases h3.items with e | e
      · rw [e]
      · rw [e, List.drop_append_of_le_length (by omega), nonEmpty_append]
        simp [nonEmpty]
    have hlen : l.prev.items.length ≤ l'.prev.items.length := by
      rcases h3.items with e | e <;> rw [e] <;> simp
    refine ⟨l', _, _, l.prev.items.drop (l.ph.curr + 1), out, h1, .inr (.inl rfl),
      decide_taken (hrem _ rfl) hat h3.toKept h3.q i2 ?_ ?_⟩
    · rcases h3.items with e | e
      · rw [e]; omega
      · rw [e, empties_append]; simp [empties]
    · refine ⟨hcore_next hcore ?_ h3.prevOk ?_ (by rw [h3.curr]; omega) (by rw [h3.curr]; exact hnei)
        (by rw [h3.held.index]; exact hcore.idx) (by rw [h3.priv]; exact setPriv_inv hcore.inv i1), .inr ?_, hdom' _ rfl⟩
      · rw [h3.q]; exact (Queue.pushAll_ok hcore.qOk _).1
      · intro d hd
        rcases h3.items with e | e
        · rw [e] at hd; exact .inl hd
        · rw [e] at hd; simpa using hd
      · refine ⟨?_, ?_, ?_, ?_⟩
        · rw [h3.priv, h3.held.index]; rfl
        · rw [h3.held.index]; exact h3.held
        · rw [h3.held.index]; exact ⟨_, _, _, _, ha⟩
        · rw [h3.held.index, h3.priv]
          intro d h1 h2
          have := i3 rfl d h1 h2
          simpa [setPriv] using this

theorem h_step {s : Static π} {hs : Nat → Handler π} {I : Nat → π → Prop} {D : Datum → Prop} (hH : Handlers s hs I D) {F : Beh π} {l : Loc π}
    {rem fut : List Datum} (h : HInv s hs I D F l rem fut) (hc : l.ph.curr < l.prev.items.length) :
    (∃ l' ctl, LReach s s.type.outer l l' ctl ∧ (ctl = .goto s.type.outer ∨ ctl = .nextBegin) ∧
      HQuiet s hs I D F l l' rem fut ∧ hrank s l' < hrank s l) ∨
    (∃ l' ctl F' rem' em, LReach s s.type.outer l l' ctl ∧ DCtl s.type ctl ∧
      HDecide s hs I D F l l' rem fut F' rem' em) := by
  by_cases he : l.prev.items[l.ph.curr] = []
  · exact .inl (h_empty hH h hc he)
  have hdm : l.prev.items[l.ph.curr] ∈ l.prev.items := List.getElem_mem hc
  have hrem : nonEmpty rem = l.prev.items[l.ph.curr] :: nonEmpty (l.prev.items.drop (l.ph.curr + 1)) := by
    rw [h.remEq, drop_cons hc, nonEmpty_cons he]; rfl
  rcases h.mode with m | m
  · have hbef : ∀ i, i < l.ph.index → (hs i).act (l.ph.priv i) l.prev.items[l.ph.curr] = none := by
      intro i hi
      obtain ⟨d, rest, e1, e2⟩ := m.before i hi
      rw [hrem] at e1
      rw [(List.cons.inj e1).1]; exact e2
    have hpost := (hH.member _ h.idx).fresh l m.start h.prevOk h.bytes hc he (h.dom _ (by rw [hrem]; simp))
    cases ha : (hs l.ph.index).act (l.ph.priv l.ph.index) l.prev.items[l.ph.curr] with
    | some r =>
      right
      rw [ha] at hpost
      rw [m.beh]
      exact h_taken hH rfl h.toHCore hc he ha (attempt_at h.idx hbef ha) hpost h.dom
    | none =>
      rw [ha] at hpost
      obtain ⟨l1, h1, hr⟩ := hpost
      have hclean : nonEmpty (l.prev.items.take l.ph.curr) = [] := by
        rcases m.clean with k | k
        · exact k
        · rw [hrem] at k; simp at k
      rcases it_refused hH.notFrom hr h.prevOk hc with ⟨hi, l2, a1, a2, a3, a4, a5, a6, a7⟩ |
          ⟨hi, hpas, l2, a1, a2, a3, a4, a5, a6, a7, a8⟩ | ⟨hi, hpas, l2, a1, b1, b2, b3, b4, a3, a4, a5, a6, a7, a8⟩
      · left
        have hrk : hrank s l2 < hrank s l := by
          simp only [hrank, a3, a6, a7.index]
          have e : s.codecn - l.ph.index = (s.codecn - (l.ph.index + 1)) + 1 := by omega
          rw [e, Nat.add_mul]; omega
        refine ⟨l2, _, h1.trans a1, .inl rfl, ⟨⟨⟨by rw [a4]; exact h.qOk, by rw [a3]; exact h.prevOk, by rw [a3]; exact h.bytes,
          by omega, ?_, by rw [a7.index]; omega, by rw [a5]; exact h.inv⟩, .inl ⟨by rw [a5]; exact m.beh, by rw [a7.index]; exact a7,
            .inl (by rw [a6]; rfl), ?_⟩, h.dom⟩, a4, a2.ierr, a2.oerr, a2.head, fun _ => a2.consumed, fun e => absurd e (by simp),
            by rw [hpads, a3]; exact Nat.le_refl _, by omega⟩, hrk⟩
        · rw [h.remEq, a6, a3]
          rw [List.drop_zero, nonEmpty_take_drop l.prev.items l.ph.curr, hclean]; rfl
        · intro i hi2
          rw [a7.index] at hi2
          refine ⟨_, _, hrem, ?_⟩
          rw [a5]
          by_cases hil : i < l.ph.index
          · exact hbef i hil
          · have : i = l.ph.index := by omega
            rw [this]; exact ha
      · right
        have hall : attempt hs l.ph.priv l.prev.items[l.ph.curr] 0 (s.codecn + 1) = none := by
          apply attempt_none
          intro i hi2
          have := h.idx
          by_cases hil : i < l.ph.index
          · exact hbef i hil
          · have : i = l.ph.index := by omega
            rw [this]; exact ha
        have hne : nonEmpty l.prev.items = nonEmpty rem := by
          rw [nonEmpty_take_drop l.prev.items l.ph.curr, hclean, h.remEq]; rfl
        have hinv : HInv s hs I D (hbeh (passes s) hs s.codecn none l.ph.priv) l2 l2.prev.items fut := by
          refine ⟨hcore_next h.toHCore ?_ a4 ?_ (by omega) (by rw [a7]; rfl) (by rw [a8.index]; omega) (by rw [a6]; exact h.inv),
            .inl ⟨by rw [a6], by rw [a8.index]; exact a8, .inl (by rw [a7]; rfl), ?_⟩, ?_⟩
          · rw [a5]; exact (Queue.pushAll_ok h.qOk _).1
          · intro d hd; rw [a3] at hd; exact .inl (List.mem_of_mem_drop hd)
          · intro i hi2; rw [a8.index] at hi2; omega
          · intro d hd
            refine h.dom d ?_
            rw [← hne]
            rcases List.mem_append.1 hd with h6 | h6
            · rw [a3] at h6
              have h7 := List.mem_filter.1 h6
              exact List.mem_append.2 (.inl (List.mem_filter.2 ⟨List.mem_of_mem_drop h7.1, h7.2⟩))
            · exact List.mem_append.2 (.inr h6)
        cases hit : l.prev.items with
        | nil => rw [hit] at hc; simp at hc
        | cons x xs =>
          have a3' : l2.prev.items = xs := by rw [a3, hit]; rfl
          have a5' : l2.ph.q = l.ph.q.pushAll [x] := by rw [a5, hit]; rfl
          refine ⟨l2, _, hbeh (passes s) hs s.codecn none l.ph.priv, l2.prev.items, [x], h1.trans a1, .inr (.inr rfl), ?_⟩
          rw [m.beh]
          have hbx : ∀ y ∈ [x], IsBytes y := by
            intro y hy; simp at hy; subst hy; exact h.bytes _ (by rw [hit]; simp)
          by_cases hx : x = []
          · subst hx
            have hne2 : nonEmpty (rem ++ fut) = nonEmpty (l2.prev.items ++ fut) := by
              rw [nonEmpty_append, ← hne, hit, nonEmpty_cons_nil, a3', nonEmpty_append]
            refine ⟨hinv, a5', hbx, a2.head, fun _ => a2.consumed, fun e => absurd e (by simp), Nat.le_refl _, ?_, ?_, ?_, ?_,
              .inr ⟨?_, ?_, by simp [empties]⟩⟩
            · simp only [hbeh, hne2]; rfl
            · simp only [hbeh]; rw [a2.ierr]
            · simp only [hbeh, hne2]; rw [a2.oerr]
            · simp only [hbeh, hne2]
            · simp only [hbeh, hne2]
            · simp only [hpads]; rw [a3', hit]; simp [empties]; omega
          · have hne2 : nonEmpty (rem ++ fut) = x :: nonEmpty (l2.prev.items ++ fut) := by
              rw [nonEmpty_append, ← hne, hit, nonEmpty_cons hx, a3', nonEmpty_append]; rfl
            have hxd : x = l.prev.items[l.ph.curr] := by
              have := hne
              rw [hit, nonEmpty_cons hx, hrem] at this
              exact (List.cons.inj this).1
            rw [← hxd] at hall
            obtain ⟨r1, r2⟩ := handle_refused (pass := passes s) (nonEmpty (l2.prev.items ++ fut)) hall
            refine ⟨hinv, a5', hbx, a2.head, fun _ => a2.consumed, fun e => absurd e (by simp), Nat.le_refl _, ?_, ?_, ?_, ?_,
              .inl ⟨?_, ?_⟩⟩
            · simp only [hbeh, hne2, r1]; rw [nonEmpty_append, if_pos hpas]
            · simp only [hbeh]; rw [a2.ierr]
            · simp only [hbeh, hpas, if_true]; rw [a2.oerr]
            · simp only [hbeh, hne2, r1]
            · simp only [hbeh, hne2, r2, empties, if_neg hx]; omega
            · simp only [hpads]; rw [a3', hit]; simp [empties]; omega
      · right
        have hall : attempt hs l.ph.priv l.prev.items[l.ph.curr] 0 (s.codecn + 1) = none := by
          apply attempt_none
          intro i hi2
          have := h.idx
          by_cases hil : i < l.ph.index
          · exact hbef i hil
          · have : i = l.ph.index := by omega
            rw [this]; exact ha
        obtain ⟨r1, r2⟩ := handle_refused (pass := passes s) (nonEmpty (l2.prev.items ++ fut)) hall
        have hne2 : nonEmpty (rem ++ fut) = l.prev.items[l.ph.curr] :: nonEmpty (l2.prev.items ++ fut) := by
          rw [nonEmpty_append, hrem, a3, nonEmpty_append]; rfl
        refine ⟨l2, _, hbeh (passes s) hs s.codecn none l.ph.priv, l2.prev.items, [], h1.trans a1, .inr (.inl rfl), ?_⟩
        rw [m.beh]
        refine ⟨⟨hcore_next h.toHCore ?_ a4 ?_ (by omega) (by rw [a7]; rfl) (by rw [a8.index]; omega) (by rw [a6]; exact h.inv),
            .inl ⟨by rw [a6], by rw [a8.index]; exact a8, .inl (by rw [a7]; rfl), ?_⟩, ?_⟩, by rw [a5]; rfl, by simp, b3,
            fun _ => b4, fun e => absurd e (by simp), Nat.le_refl _, ?_, ?_, ?_, ?_, .inl ⟨?_, ?_⟩⟩
        · rw [a5]; exact h.qOk
        · intro d hd; rw [a3] at hd; exact .inl (List.mem_of_mem_drop hd)
        · intro i hi2; rw [a8.index] at hi2; omega
        · intro d hd
          refine h.dom d ?_
          rw [hrem]
          rw [a3] at hd
          exact List.mem_cons_of_mem _ hd
        · simp only [hbeh, hne2, r1]; rw [hpas]; simp
        · simp only [hbeh]; rw [b1]
        · simp only [hbeh, hne2, r1]; rw [b2, hpas]; simp; omega
        · simp only [hbeh, hne2, r1]
        · simp only [hbeh, hne2, r2, empties]; omega
        · simp only [hpads]; rw [a3]
          have := empties_drop_le l.prev.items (l.ph.curr + 1); omega
  · right
    have hst := m.steady _ he (h.bytes _ hdm)
    have hpost := (hH.member _ h.idx).held m.can l m.held h.prevOk h.bytes hc he hst
    cases ha : (hs l.ph.index).act (l.ph.priv l.ph.index) l.prev.items[l.ph.curr] with
    | none => exact absurd ha hst
    | some r =>
      rw [ha] at hpost
      rw [m.beh]
      refine h_taken hH rfl h.toHCore hc he ha ?_ hpost h.dom
      simp only [choose, attempt]; rw [ha]

theorem h_visit {s : Static π} {hs : Nat → Handler π} {I : Nat → π → Prop} {D : Datum → Prop} (hH : Handlers s hs I D) {F : Beh π} {l : Loc π}
    {rem fut : List Datum} (h : HInv s hs I D F l rem fut) :
    (∃ l' ctl, LReach s s.type.outer l l' ctl ∧ (ctl = .goto .leave ∨ ctl = .nextBegin) ∧
      HQuiet s hs I D F l l' rem fut ∧ (l.ph.curr < l.prev.items.length → hrank s l' < hrank s l) ∧
      (ctl = .nextBegin → l.ph.curr < l.prev.items.length)) ∨
    (∃ l' ctl F' rem' em, LReach s s.type.outer l l' ctl ∧ DCtl s.type ctl ∧
      HDecide s hs I D F l l' rem fut F' rem' em) := by
  generalize hr : hrank s l = r
  induction r using Nat.strongRecOn generalizing l with
  | ind r ih =>
    by_cases hc : l.ph.curr < l.prev.items.length
    · rcases h_step hH h hc with ⟨l1, ctl, h1, h2, h3, h4⟩ | h1
      · rcases h2 with rfl | rfl
        · rcases ih (hrank s l1) (by omega) h3.inv rfl with ⟨l', ctl, k1, k2, k3, k4, k5⟩ | ⟨l', ctl, F', rem', em, k1, k2, k3⟩
          · left
            refine ⟨l', ctl, h1.trans k1, k2, h3.trans_h k3, fun _ => ?_, fun _ => hc⟩
            have := k3.rank; omega
          · right
            exact ⟨l', ctl, F', rem', em, h1.trans k1, k2, h3.decide_h k3⟩
        · left
          exact ⟨l1, _, h1, .inr rfl, h3, fun _ => by omega, fun _ => hc⟩
      · exact .inr h1
    · left
      have hh : l.prev.hasNext l.ph.curr = false := by simp [Queue.hasNext, hc]
      refine ⟨l, .goto .leave, ?_, .inl rfl, ⟨h, rfl, rfl, rfl, rfl, fun _ => rfl, fun _ => Nat.le_refl _, Nat.le_refl _, Nat.le_refl _⟩,
        fun e => absurd e hc, fun e => by simp at e⟩
      cases ht : s.type with
      | from_ => exact absurd ht hH.notFrom
      | inter => exact .one rfl (by simp [PType.outer, localStep, itOuter, hh])
      | to_ => exact .one rfl (by simp [PType.outer, localStep, itOuter, hh])

theorem h_flush {s : Static π} {hs : Nat → Handler π} {I : Nat → π → Prop} {D : Datum → Prop} (hH : Handlers s hs I D) {F : Beh π} {l : Loc π}
    {rem fut : List Datum} (h : HInv s hs I D F l rem fut) (hf : nonEmpty fut = []) (hc : l.ph.curr = l.prev.items.length)
    (hp : l.ph.fPending = true) :
    ∃ l' ctl F' rem' em, LReach s s.type.dead l l' ctl ∧ DCtl s.type ctl ∧
      HDecide s hs I D F l l' rem fut F' rem' em := by
  rcases h.mode with m | m
  · rw [m.start.pend] at hp; simp at hp
  · obtain ⟨l', ctl, a1, a2, a3, a4, a5, a6, a7, a8⟩ := (hH.member _ h.idx).flush m.can l m.held
    obtain ⟨i1, i2⟩ := hH.flush _ _ (h.inv l.ph.index)
    have hrem : nonEmpty rem = [] := by rw [h.remEq, hc, List.drop_length]; rfl
    have e1 : nonEmpty (rem ++ fut) = [] := by rw [nonEmpty_append, hrem, hf]; rfl
    have e2 : nonEmpty ([] ++ fut) = [] := by rw [List.nil_append, hf]
    refine ⟨l', ctl, hbeh (passes s) hs s.codecn none l'.ph.priv, [], ((hs l.ph.index).flush (l.ph.priv l.ph.index)).2, a1, a2, ?_⟩
    rw [m.beh]
    refine ⟨⟨hcore_next h.toHCore ?_ (by rw [a4]; exact h.prevOk) (by rw [a4]; exact fun d hd => .inl hd) ?_ ?_ ?_ ?_,
      .inl ⟨rfl, by rw [a8.index]; exact a8, .inr (by rw [hf]; rfl), ?_⟩, by rw [hf]; simp [nonEmpty]⟩, a5, i2, a3.head, fun _ => a3.consumed,
      fun e => absurd e (by simp), Nat.le_refl _, ?_, ?_, ?_, ?_, .inl ⟨?_, ?_⟩⟩
    · rw [a5]; exact (Queue.pushAll_ok h.qOk _).1
    · rw [a7, a4]; omega
    · rw [a7, a4, hc, List.drop_length]
    · rw [a8.index]; omega
    · rw [a6]; exact setPriv_inv h.inv i1
    · intro i hi; rw [a8.index] at hi; omega
    · simp only [hbeh, e1, e2, handle]; simp
    · simp only [hbeh]; rw [a3.ierr]
    · simp only [hbeh, e1, e2, handle]; rw [a3.oerr]
    · simp only [hbeh, e1, e2, handle]; rw [a6]
    · simp only [hbeh, e1, e2, handleToks]; omega
    · simp only [hpads]; rw [a4]; omega

/-- Handler phases are a kind of phase. -/
def handlerKind {s : Static π} {hs : Nat → Handler π} {I : Nat → π → Prop} {D : Datum → Prop} (hH : Handlers s hs I D) : Kind s where
  Inv := HInv s hs I D
  dec := false
  pads := hpads
  rank := hrank s
  qok := fun h => ⟨h.qOk, h.prevOk, h.currle⟩
  visit := fun h => h_visit hH h
  flush := fun h h1 h2 h3 => .inr (h_flush hH h h1 h2 h3)
  append := by
    intro F l l' rem fut em fut' h h1 h2 h3 _ h5 _
    have hit : l'.prev.items = l.prev.items ++ em := by rw [h2, (Queue.pushAll_ok h.prevOk em).2]
    refine ⟨⟨by rw [h3]; exact h.qOk, by rw [h2]; exact (Queue.pushAll_ok h.prevOk em).1, ?_, ?_, ?_, by rw [h3]; exact h.idx,
      by rw [h3]; exact h.inv⟩, ?_, by rw [nonEmpty_append, List.append_assoc, ← h1]; exact h.dom⟩
    · intro d hd
      rw [hit] at hd
      rcases List.mem_append.1 hd with h6 | h6
      · exact h.bytes d h6
      · exact h5 d h6
    · rw [h3, hit]
      have := h.currle
      simp only [List.length_append]; omega
    · rw [h3, hit, List.drop_append_of_le_length h.currle, nonEmpty_append, nonEmpty_append, h.remEq]
    · rcases h.mode with m | m
      · left
        refine ⟨by rw [h3]; exact m.beh, ?_, ?_, ?_⟩
        · rw [h3]; exact ⟨by rw [h3], by rw [h3]; exact m.start.st, by rw [h3]; exact m.start.loop, by rw [h3]; exact m.start.fmatch,
            by rw [h3]; exact m.start.pend⟩
        · rcases m.clean with k | k
          · left
            rw [h3, hit, List.take_append_of_le_length h.currle]; exact k
          · right
            rw [nonEmpty_append, List.append_assoc, ← h1]; exact k
        · intro i hi
          rw [h3] at hi
          obtain ⟨d, rest, e1, e2⟩ := m.before i hi
          refine ⟨d, rest ++ nonEmpty em, by rw [nonEmpty_append, e1]; rfl, by rw [h3]; exact e2⟩
      · right
        refine ⟨by rw [h3]; exact m.beh, ?_, by rw [h3]; exact m.can, by rw [h3]; exact m.steady⟩
        rw [h3]
        exact ⟨by rw [h3], by rw [h3]; exact m.held.st, by rw [h3]; exact m.held.offset, by rw [h3]; exact m.held.loop,
          by rw [h3]; exact m.held.fmatch, by rw [h3]; exact m.held.pend, by rw [h3]; exact m.held.data⟩
  frame := by
    intro F l l' rem fut h h1 h2 h3 _
    refine ⟨⟨h2, by rw [h1]; exact h.prevOk, by rw [h1]; exact h.bytes, by rw [h1, h3]; exact h.currle,
      by rw [h1, h3]; exact h.remEq, by rw [h3]; exact h.idx, by rw [h3]; exact h.inv⟩, ?_, h.dom⟩
    rcases h.mode with m | m
    · left
      exact ⟨by rw [h3]; exact m.beh, by rw [h3]; exact ⟨by rw [h3], by rw [h3]; exact m.start.st, by rw [h3]; exact m.start.loop,
        by rw [h3]; exact m.start.fmatch, by rw [h3]; exact m.start.pend⟩, by rw [h1, h3]; exact m.clean, by rw [h3]; exact m.before⟩
    · right
      refine ⟨by rw [h3]; exact m.beh, ?_, by rw [h3]; exact m.can, by rw [h3]; exact m.steady⟩
      rw [h3]
      exact ⟨by rw [h3], by rw [h3]; exact m.held.st, by rw [h3]; exact m.held.offset, by rw [h3]; exact m.held.loop,
        by rw [h3]; exact m.held.fmatch, by rw [h3]; exact m.held.pend, by rw [h3]; exact m.held.data⟩
  rank_frame := by intro l l' h1 h2; simp only [hrank]; rw [h1, h2]
  pads_frame := by intro l l' h1 h2; simp only [hpads]; rw [h1]
  pads_append := by
    intro F l l' rem fut em h h1 h2
    simp only [hpads]; rw [h1, (Queue.pushAll_ok h.prevOk em).2, empties_append]; omega
  idle := by
    intro F l rem fut h h1 h2 h3
    rcases h.mode with m | m
    · have hrem : nonEmpty rem = [] := by
        have := h.currle
        rw [h.remEq, List.drop_of_length_le (by omega)]; rfl
      have e1 : nonEmpty (rem ++ fut) = [] := by rw [nonEmpty_append, hrem, h3]; rfl
      rw [m.beh]
      simp only [hbeh, e1, handle]
      exact ⟨rfl, trivial, by simp, trivial⟩
    · rw [m.held.pend] at h2; simp at h2
  noIn := by
    intro _ F l rem fut h
    rcases h.mode with m | m
    · rw [m.beh]; rfl
    · rw [m.beh]; rfl

theorem attempt_mem {hs : Nat → Handler π} {p : Nat → π} {d : Datum} {j k i : Nat} {r : π × List Datum × Bool}
    (h : attempt hs p d j k = some (i, r)) : (hs i).act (p i) d = some r := by
  induction k generalizing j with
  | zero => simp [attempt] at h
  | succ k ih =>
    simp only [attempt] at h
    split at h
    · rename_i r' hr
      simp only [Option.some.injEq, Prod.mk.injEq] at h
      obtain ⟨rfl, rfl⟩ := h
      exact hr
    · exact ih h

theorem handle_bytes {s : Static π} {hs : Nat → Handler π} {I : Nat → π → Prop} {D : Datum → Prop} (hH : Handlers s hs I D) (pass : Bool)
    (n : Nat) (w : Option Nat) (p : Nat → π) (hp : ∀ j, I j (p j)) (ds : List Datum) (hb : AllBytes ds)
    (hne : ∀ d ∈ ds, d ≠ []) : AllBytes (handle pass hs n w p ds).out := by
  induction ds generalizing w p with
  | nil =>
    cases w with
    | none => intro d hd; simp [handle] at hd
    | some j => exact (hH.flush j _ (hp j)).2
  | cons d ds ih =>
    have hb' : AllBytes ds := fun x hx => hb x (by simp [hx])
    have hne' : ∀ x ∈ ds, x ≠ [] := fun x hx => hne x (by simp [hx])
    rw [handle_cons]
    cases hc : choose hs n p d w with
    | none =>
      intro x hx
      simp only [List.mem_append] at hx
      rcases hx with hx | hx
      · split at hx
        · simp only [List.mem_singleton] at hx; subst hx; exact hb _ (by simp)
        · simp at hx
      · exact ih none p hp hb' hne' x hx
    | some r =>
      obtain ⟨j, t, out, hold⟩ := r
      have ha : (hs j).act (p j) d = some (t, out, hold) := by
        cases w <;> exact attempt_mem hc
      obtain ⟨a, b, _⟩ := hH.act j _ d (hp j) (hne d (by simp)) (hb d (by simp)) _ _ _ ha
      intro x hx
      simp only [List.mem_append] at hx
      rcases hx with hx | hx
      · exact b x hx
      · exact ih _ _ (setPriv_inv hp a) hb' hne' x hx

theorem nonEmpty_bytes {ds : List Datum} (hb : AllBytes ds) : AllBytes (nonEmpty ds) ∧ ∀ d ∈ nonEmpty ds, d ≠ [] := by
  refine ⟨fun d hd => hb d (List.mem_filter.1 hd).1, fun d hd => ?_⟩
  have := (List.mem_filter.1 hd).2
  rintro rfl
  simp at this

/-- A handler phase realises its processor, for data its codecs are described for. -/
theorem handler_realises_on {s : Static π} {hs : Nat → Handler π} {I : Nat → π → Prop} {D : Datum → Prop} (hH : Handlers s hs I D)
    {p : Nat → π} (hp : ∀ j, I j (p j)) :
    Realises s (fun q => q = p)
      { handlerProc (passes s) hs s.codecn p with ok := fun ds => ∀ d ∈ nonEmpty ds, D d } := by
  refine ⟨handlerKind hH, hbeh (passes s) hs s.codecn none p, rfl, ?_, ?_⟩
  · intro ds hb _
    exact ⟨rfl, rfl, rfl, fun _ h => h, handle_bytes hH _ _ _ _ hp _ (nonEmpty_bytes hb).1 (nonEmpty_bytes hb).2⟩
  intro l fut _ hl hpr hok
  subst hpr
  refine ⟨⟨by rw [hl.q]; rfl, by rw [hl.prev]; rfl, by rw [hl.prev]; simp [Queue.empty], by rw [hl.curr]; omega, ?_,
    by rw [hl.index]; omega, hp⟩, .inl ⟨rfl, ⟨rfl, hl.st, hl.fLoop, hl.fMatch, hl.fPending⟩, .inl (by rw [hl.curr]; rfl), ?_⟩, hok⟩
  · rw [hl.prev]; simp [Queue.empty]
  · intro i hi; rw [hl.index] at hi; omega

/-- A handler phase realises its processor. -/
theorem handler_realises {s : Static π} {hs : Nat → Handler π} {I : Nat → π → Prop} (hH : Handlers s hs I)
    {p : Nat → π} (hp : ∀ j, I j (p j)) :
    Realises s (fun q => q = p) (handlerProc (passes s) hs s.codecn p) :=
  (handler_realises_on hH hp).as rfl (fun _ _ _ _ _ => trivial) (fun _ _ _ => ⟨rfl, rfl, rfl, fun _ h => h⟩)

end Verif.Engine
