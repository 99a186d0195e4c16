import Verif.Proofs.Mixed

/-! A rewriting table with one row `… ?`, whose callback puts out fixed data: the phase does what it would do if the row
had those data in place of the question mark, for data of the form `01 xx`. -/

namespace Verif.Engine
open Verif.Spec

variable {π : Type}

/-- A datum of two bytes, the first being 1: an ASCII or Latin-1 character. -/
def Small (d : Datum) : Prop := ∃ x, d = [1, x]

/-- `c` is the automaton `c'` with a callback at the node `alt`, where `c'` puts out `b`. -/
structure CallRow (c c' : Codec π) (alt : Nat) (b : List Datum) : Prop where
  next : c.next = c'.next
  status : ∀ o, o ≠ alt → c.status o = c'.status o
  call : c.status alt = .subroutine
  leaf : c'.status alt = .match_
  data : ∀ o, o ≠ alt → c.data o = c'.data o
  here : c'.data alt = b
  conv : ∀ l, c.conv l = { l with ph := { l.ph with q := l.ph.q.pushAll b, status := .nextphase } }
  last : ∀ st x, c'.next st x = alt → x ≠ 1 ∧ x ≠ 256
  pos : alt ≠ 0
  plain : ∀ o, c'.status o ≠ .subroutine ∧ c'.status o ≠ .submatchSubroutine
  flush : c.flush = none
  flush' : c'.flush = none

/-- The phase `s` has such a codec at index `j` where `s'` has the table. -/
structure CallPhase (s s' : Static π) (j alt : Nat) (b : List Datum) : Prop where
  type : s.type = .inter
  type' : s'.type = .inter
  codecn : s.codecn = s'.codecn
  row : CallRow (s.codecs j) (s'.codecs j) alt b
  same : ∀ i, i ≠ j → s.codecs i = s'.codecs i
  conv : ∀ i, i ≠ j → ∀ l, l.ph.index = i → ((s'.codecs i).conv l).ph.index = i ∧ ((s'.codecs i).conv l).prev = l.prev
  flush : ∀ i, i ≠ j → (s'.codecs i).flush = none

variable {s s' : Static π} {j alt : Nat} {b : List Datum}

/-- Data are small, and the call is not under way. -/
structure Apart (j alt : Nat) (l : Loc π) : Prop where
  small : ∀ d ∈ l.prev.items, d = [] ∨ Small d
  off : l.ph.index = j → l.ph.fLoop = false ∧ l.ph.st ≠ alt

theorem CallPhase.root (h : CallPhase s s' j alt b) (i : Nat) : (s.codecs i).status 0 = (s'.codecs i).status 0 := by
  by_cases hi : i = j
  · subst hi; exact h.row.status 0 (Ne.symm h.row.pos)
  · rw [h.same i hi]

theorem CallPhase.reset (h : CallPhase s s' j alt b) (p : Ph π) : p.reset s = p.reset s' := by
  simp only [Ph.reset, h.root]

theorem CallPhase.flush_none (h : CallPhase s s' j alt b) (i : Nat) : (s.codecs i).flush = none ∧ (s'.codecs i).flush = none := by
  by_cases hi : i = j
  · subst hi; exact ⟨h.row.flush, h.row.flush'⟩
  · rw [h.same i hi]; exact ⟨h.flush i hi, h.flush i hi⟩

theorem advance_eq {p : Ph π} (h : s.codecs p.index = s'.codecs p.index) (c : Nat) : p.advance s c = p.advance s' c := by
  have e : s.codec p = s'.codec p := h
  unfold Ph.advance
  rw [e]

theorem advance_index (s : Static π) (p : Ph π) (c : Nat) : (p.advance s c).index = p.index := rfl

theorem scan_eq (ds : List Nat) (p : Ph π) (h : s.codecs p.index = s'.codecs p.index) : p.scan s ds = p.scan s' ds := by
  induction ds generalizing p with
  | nil => rfl
  | cons c cs ih =>
    simp only [Ph.scan, advance_eq h]
    cases (p.advance s' c).status <;> first | rfl | exact ih _ h

theorem scan_index (s : Static π) (ds : List Nat) (p : Ph π) : (p.scan s ds).2.index = p.index := by
  induction ds generalizing p with
  | nil => rfl
  | cons c cs ih =>
    simp only [Ph.scan]
    cases (p.advance s c).status <;> first | rfl | exact ih _

/-- The labels of a rewriting phase. -/
def InterPC (pc : PC) : Prop := pc = .interOuter ∨ pc = .interSw ∨ pc = .interDead

/-- Where control goes from there. -/
def InterCtl (ctl : Ctl) : Prop := ∀ pc, ctl = .goto pc → InterPC pc ∨ pc.isLocal = false

/-- The step after which the call is made. -/
structure Calling (j alt : Nat) (l : Loc π) : Prop where
  small : ∀ d ∈ l.prev.items, d = [] ∨ Small d
  index : l.ph.index = j
  st : l.ph.st = alt
  status : l.ph.status = .match_

theorem emitMatch_eq (h : CallPhase s s' j alt b) (l : Loc π) : emitMatch s l false = emitMatch s' l false := by
  obtain ⟨f1, f2⟩ := h.flush_none l.ph.index
  simp only [emitMatch, Static.codec, f1, f2, h.reset]

theorem listFree_items (q : Queue) (k : Nat) : ∀ d ∈ (q.listFree k).items, d ∈ q.items := by
  intro d hd
  unfold Queue.listFree at hd
  exact List.mem_of_mem_drop hd

theorem reset_apart (h : CallPhase s s' j alt b) {prev : Queue} {l : Loc π} {p : Ph π} (hs : ∀ d ∈ prev.items, d = [] ∨ Small d)
    (hl : p.fLoop = false) : Apart j alt { l with prev := prev, ph := p.reset s' } :=
  ⟨hs, fun _ => ⟨hl, Ne.symm h.row.pos⟩⟩

/-- The dead end is the same. -/
theorem callrow_dead (h : CallPhase s s' j alt b) {l : Loc π} (ha : Apart j alt l) {l1 : Loc π} {ctl : Ctl}
    (hs : localStep s' .interDead l = (l1, ctl)) : localStep s .interDead l = (l1, ctl) ∧ Apart j alt l1 ∧ InterCtl ctl ∧ ctl ≠ .goto .interSw := by
  have hE : localStep s .interDead l = localStep s' .interDead l := by
    simp only [localStep, interDead, emitMatch_eq h, h.codecn, Static.codec, h.root, h.reset]
  refine ⟨by rw [hE, hs], ?_⟩
  simp only [localStep, interDead] at hs
  split at hs
  · obtain ⟨rfl, rfl⟩ := Prod.mk.inj hs
    refine ⟨?_, fun pc e => by cases e; exact .inr rfl, by simp⟩
    simp only [emitMatch]
    obtain ⟨_, f2⟩ := h.flush_none l.ph.index
    split
    · refine ⟨fun d hd => ha.small d (listFree_items _ _ d hd), fun _ => ⟨rfl, Ne.symm h.row.pos⟩⟩
    · simp only [Static.codec, f2]
      exact ⟨ha.small, fun _ => ⟨rfl, Ne.symm h.row.pos⟩⟩
  · split at hs
    · obtain ⟨rfl, rfl⟩ := Prod.mk.inj hs
      exact ⟨⟨ha.small, fun _ => ⟨rfl, Ne.symm h.row.pos⟩⟩, fun pc e => by cases e; exact .inl (.inl rfl), by simp⟩
    · split at hs
      · rename_i hi
        obtain ⟨rfl, rfl⟩ := Prod.mk.inj hs
        refine ⟨⟨by simp only at hi ⊢; rw [hi]; simp, fun e => ⟨rfl, (ha.off e).2⟩⟩, fun pc e => by cases e; exact .inr rfl, by simp⟩
      · rename_i d ds hi
        obtain ⟨rfl, rfl⟩ := Prod.mk.inj hs
        refine ⟨⟨?_, fun _ => ⟨rfl, Ne.symm h.row.pos⟩⟩, fun pc e => (by cases e), by simp⟩
        intro x hx
        exact ha.small x (by simp only at hi hx; rw [hi]; simp [hx])

theorem itSep_eq (h : CallPhase s s' j alt b) {l : Loc π} (ha : l.ph.index = j → l.ph.fLoop = false) :
    itSep s l .interOuter .interDead = itSep s' l .interOuter .interDead ∧
      ((itSep s' l .interOuter .interDead).1.ph.index = j → (itSep s' l .interOuter .interDead).1.ph.fLoop = false ∧
        (itSep s' l .interOuter .interDead).1.ph.st ≠ alt) := by
  by_cases hi : l.ph.index = j
  · have hl := ha hi
    have hoff : (if (s'.codecs j).next l.ph.st 256 ≠ 0 then (s'.codecs j).next l.ph.st 256 else 0) ≠ alt := by
      split
      · intro e; exact (h.row.last _ _ e).2 rfl
      · exact Ne.symm h.row.pos
    have e1 : l.ph.advance s 256 = l.ph.advance s' 256 := by
      simp only [Ph.advance, Static.codec, hi, hl, h.row.next, Bool.false_eq_true, if_false]
      rw [h.row.status _ hoff]
    refine ⟨by simp only [itSep, e1], fun _ => ⟨hl, ?_⟩⟩
    simp only [itSep, Ph.advance, Static.codec, hi, hl, Bool.false_eq_true, if_false]
    exact hoff
  · refine ⟨?_, fun e => absurd e hi⟩
    simp only [itSep, advance_eq (h.same _ hi)]

theorem itSep_ctl (s : Static π) (l : Loc π) : InterCtl (itSep s l .interOuter .interDead).2 ∧
    (itSep s l .interOuter .interDead).2 ≠ .goto .interSw ∧ (itSep s l .interOuter .interDead).1.prev = l.prev := by
  refine ⟨?_, ?_, rfl⟩
  · intro pc e
    simp only [itSep, Ctl.goto.injEq] at e
    split at e
    · exact .inl (.inr (.inr e.symm))
    · exact .inl (.inl e.symm)
  · simp only [itSep]
    split <;> simp

/-- The switch, when the call is not at issue. -/
theorem callrow_sw (h : CallPhase s s' j alt b) {l : Loc π} (ha : Apart j alt l)
    (hst : l.ph.index = j → l.ph.status ≠ .subroutine ∧ l.ph.status ≠ .submatchSubroutine) {l1 : Loc π} {ctl : Ctl}
    (hs : localStep s' .interSw l = (l1, ctl)) : localStep s .interSw l = (l1, ctl) ∧ Apart j alt l1 ∧ InterCtl ctl ∧
      (ctl = .goto .interSw → l1.ph.index ≠ j) := by
  have hdata : (s.codec l.ph).data l.ph.st = (s'.codec l.ph).data l.ph.st := by
    by_cases hi : l.ph.index = j
    · simp only [Static.codec, hi]
      exact h.row.data _ (ha.off hi).2
    · simp only [Static.codec, h.same _ hi]
  have hsub : itSubmatch s l = itSubmatch s' l := by simp only [itSubmatch, hdata]
  by_cases hcont : l.ph.status = .cont
  · have hE0 : ∀ s0 : Static π, localStep s0 .interSw l =
        itSep s0 { l with ph := { l.ph with fPending := true } } .interOuter .interDead := by
      intro s0; simp only [localStep, interSw, hcont]
    rw [hE0] at hs ⊢
    obtain ⟨k1, k2⟩ := itSep_eq h (l := { l with ph := { l.ph with fPending := true } }) (fun e => (ha.off e).1)
    obtain ⟨c1, c2, c3⟩ := itSep_ctl s' { l with ph := { l.ph with fPending := true } }
    rw [hs] at k1 k2 c1 c2 c3
    refine ⟨k1, ⟨?_, k2⟩, c1, fun e => absurd e c2⟩
    simp only at c3
    rw [c3]; exact ha.small
  simp only [localStep, interSw] at hs ⊢
  cases hS : l.ph.status with
  | «nomatch» =>
    rw [hS] at hs; obtain ⟨rfl, rfl⟩ := Prod.mk.inj hs
    exact ⟨rfl, ha, fun pc e => (by cases e), by simp⟩
  | deadend =>
    rw [hS] at hs; obtain ⟨rfl, rfl⟩ := Prod.mk.inj hs
    exact ⟨rfl, ha, fun pc e => by cases e; exact .inl (.inr (.inr rfl)), by simp⟩
  | match_ =>
    rw [hS] at hs; obtain ⟨rfl, rfl⟩ := Prod.mk.inj hs
    refine ⟨by simp only [hdata, h.reset], ⟨fun d hd => ha.small d (listFree_items _ _ d hd), fun _ => ⟨rfl, Ne.symm h.row.pos⟩⟩,
      fun pc e => (by cases e), by simp⟩
  | submatch =>
    rw [hS] at hs
    simp only at hs
    have hix : (itSubmatch s' l).ph.index = l.ph.index := by simp only [itSubmatch]; split <;> rfl
    have hlp : (itSubmatch s' l).ph.fLoop = l.ph.fLoop := by simp only [itSubmatch]; split <;> rfl
    obtain ⟨k1, k2⟩ := itSep_eq h (l := itSubmatch s' l) (fun e => by rw [hlp]; exact (ha.off (by rw [← hix]; exact e)).1)
    obtain ⟨c1, c2, c3⟩ := itSep_ctl s' (itSubmatch s' l)
    rw [hs] at k1 k2 c1 c2 c3
    refine ⟨by simp only [hsub]; exact k1, ⟨?_, k2⟩, c1, fun e => absurd e c2⟩
    simp only at c3
    rw [c3]
    simp only [itSubmatch]
    split
    · exact ha.small
    · intro d hd
      have : (l.prev.push []).items = l.prev.items.take l.prev.tail ++ [[]] := rfl
      simp only at hd
      rw [this] at hd
      rcases List.mem_append.1 hd with hd | hd
      · exact ha.small d (List.mem_of_mem_take hd)
      · simp at hd; exact .inl hd
  | subroutine =>
    have hi : l.ph.index ≠ j := fun e => (hst e).1 hS
    rw [hS] at hs; obtain ⟨rfl, rfl⟩ := Prod.mk.inj hs
    obtain ⟨c1, c2⟩ := h.conv _ hi l rfl
    refine ⟨by simp only [Static.codec, h.same _ hi], ⟨by simp only [Static.codec]; rw [c2]; exact ha.small, fun e => ?_⟩,
      fun pc e => by cases e; exact .inl (.inr (.inl rfl)), fun _ => ?_⟩
    · simp only [Static.codec] at e; rw [c1] at e; exact absurd e hi
    · simp only [Static.codec]; rw [c1]; exact hi
  | submatchSubroutine =>
    have hi : l.ph.index ≠ j := fun e => (hst e).2 hS
    rw [hS] at hs; obtain ⟨rfl, rfl⟩ := Prod.mk.inj hs
    obtain ⟨c1, c2⟩ := h.conv _ hi l rfl
    refine ⟨by simp only [Static.codec, h.same _ hi], ⟨by simp only [Static.codec]; rw [c2]; exact ha.small, fun e => ?_⟩,
      fun pc e => by cases e; exact .inl (.inr (.inl rfl)), fun _ => ?_⟩
    · simp only [Static.codec] at e; rw [c1] at e; exact absurd e hi
    · simp only [Static.codec]; rw [c1]; exact hi
  | nextphase =>
    rw [hS] at hs; obtain ⟨rfl, rfl⟩ := Prod.mk.inj hs
    refine ⟨by simp only [h.reset], ⟨fun d hd => ha.small d (listFree_items _ _ d hd), fun _ => ⟨rfl, Ne.symm h.row.pos⟩⟩,
      fun pc e => (by cases e), by simp⟩
  | cont => exact absurd hS hcont
  | noop =>
    rw [hS] at hs; obtain ⟨rfl, rfl⟩ := Prod.mk.inj hs
    exact ⟨rfl, ha, fun pc e => by cases e; exact .inr rfl, by simp⟩
  | noopNext =>
    rw [hS] at hs; obtain ⟨rfl, rfl⟩ := Prod.mk.inj hs
    exact ⟨rfl, ha, fun pc e => (by cases e), by simp⟩

theorem scan_cons_plain {s : Static π} {p : Ph π} {c : Nat} {cs : List Nat}
    (h : (p.advance s c).status ≠ .subroutine ∧ (p.advance s c).status ≠ .submatchSubroutine) :
    p.scan s (c :: cs) = if (p.advance s c).status = .deadend then (true, p.advance s c) else
      ({ p.advance s c with i := (p.advance s c).i + 1 } : Ph π).scan s cs := by
  obtain ⟨h1, h2⟩ := h
  simp only [Ph.scan]
  cases hq : (p.advance s c).status with
  | subroutine => exact absurd hq h1
  | submatchSubroutine => exact absurd hq h2
  | _ => simp

/-- A small datum. -/
theorem scan_two (h : CallPhase s s' j alt b) {p : Ph π} (hi : p.index = j) (hl : p.fLoop = false) (x : Nat) :
    (p.scan s [1, x] = p.scan s' [1, x] ∧ (p.scan s' [1, x]).2.fLoop = false ∧ (p.scan s' [1, x]).2.st ≠ alt ∧
      (p.scan s' [1, x]).2.status ≠ .subroutine ∧ (p.scan s' [1, x]).2.status ≠ .submatchSubroutine) ∨
    ((p.scan s' [1, x]).1 = false ∧ (p.scan s' [1, x]).2.index = j ∧ (p.scan s' [1, x]).2.st = alt ∧
      (p.scan s' [1, x]).2.status = .match_ ∧
      p.scan s [1, x] = (false, { (p.scan s' [1, x]).2 with status := .subroutine, fLoop := true })) := by
  have step : ∀ (q : Ph π) (c : Nat), q.index = j → q.fLoop = false → (s'.codecs j).next q.st c ≠ alt →
      q.advance s c = q.advance s' c ∧ (q.advance s' c).index = j ∧ (q.advance s' c).fLoop = false ∧ (q.advance s' c).st ≠ alt ∧
      (q.advance s' c).status ≠ .subroutine ∧ (q.advance s' c).status ≠ .submatchSubroutine := by
    intro q c hq hql hn
    have hoff : (if (s'.codecs j).next q.st c ≠ 0 then (s'.codecs j).next q.st c else 0) ≠ alt := by
      split
      · exact hn
      · exact Ne.symm h.row.pos
    refine ⟨?_, hq, hql, ?_, ?_⟩
    · simp only [Ph.advance, Static.codec, hq, hql, h.row.next, Bool.false_eq_true, if_false]
      rw [h.row.status _ hoff]
    · simp only [Ph.advance, Static.codec, hq, hql, Bool.false_eq_true, if_false]; exact hoff
    · simp only [Ph.advance, Static.codec, hq]; exact h.row.plain _
  obtain ⟨a1, a2, a3, a4, a5⟩ := step p 1 hi hl (fun e => (h.row.last _ _ e).1 rfl)
  rw [scan_cons_plain (s := s) (by rw [a1]; exact a5), scan_cons_plain (s := s') a5, a1]
  by_cases hd : (p.advance s' 1).status = .deadend
  · left
    simp only [if_pos hd]
    exact ⟨trivial, a3, a4, a5⟩
  · rw [if_neg hd, if_neg hd]
    generalize hq : ({ p.advance s' 1 with i := (p.advance s' 1).i + 1 } : Ph π) = q
    have qi : q.index = j := by rw [← hq]; exact a2
    have ql : q.fLoop = false := by rw [← hq]; exact a3
    by_cases hal : (s'.codecs j).next q.st x = alt
    · right
      have ea' : q.advance s' x = { q with offset := alt, st := alt, status := .match_ } := by
        simp only [Ph.advance, Static.codec, qi, hal, ne_eq, h.row.pos, not_false_eq_true, if_true, h.row.leaf]
      have ea : q.advance s x = { q with offset := alt, st := alt, status := .subroutine } := by
        simp only [Ph.advance, Static.codec, qi, h.row.next, hal, ne_eq, h.row.pos, not_false_eq_true, if_true, h.row.call]
      simp only [Ph.scan, ea', ea]
      exact ⟨trivial, qi, trivial, trivial, trivial⟩
    · left
      obtain ⟨b1, b2, b3, b4, b5⟩ := step q x qi ql hal
      rw [scan_cons_plain (s := s) (by rw [b1]; exact b5), scan_cons_plain (s := s') b5, b1]
      by_cases hd2 : (q.advance s' x).status = .deadend
      · simp only [if_pos hd2]; exact ⟨trivial, b3, b4, b5⟩
      · simp only [if_neg hd2]; exact ⟨rfl, b3, b4, b5⟩

/-- Reading a datum. -/
theorem callrow_outer (h : CallPhase s s' j alt b) {l : Loc π} (ha : Apart j alt l) {l1 : Loc π} {ctl : Ctl}
    (hs : localStep s' .interOuter l = (l1, ctl)) :
    (localStep s .interOuter l = (l1, ctl) ∧ Apart j alt l1 ∧ InterCtl ctl ∧
      (ctl = .goto .interSw → l1.ph.index = j → l1.ph.status ≠ .subroutine ∧ l1.ph.status ≠ .submatchSubroutine)) ∨
    (ctl = .goto .interSw ∧ Calling j alt l1 ∧
      localStep s .interOuter l = ({ l1 with ph := { l1.ph with status := .subroutine, fLoop := true } }, .goto .interSw)) := by
  simp only [localStep, itOuter] at hs ⊢
  by_cases hn : l.prev.hasNext l.ph.curr = true
  · rw [if_pos hn] at hs ⊢
    have hlt : l.ph.curr < l.prev.items.length := by simpa [Queue.hasNext] using hn
    have hd : l.prev.get (l.ph.curr + 1) ∈ l.prev.items := by
      have : l.prev.get (l.ph.curr + 1) = l.prev.items[l.ph.curr] := by
        simp [Queue.get, List.getD_eq_getElem?_getD, List.getElem?_eq_getElem hlt]
      rw [this]; exact List.getElem_mem _
    have hctl : ∀ r : Bool, InterCtl (.goto (if r then PC.interDead else .interSw)) := by
      intro r pc e
      cases r
      · simp at e; exact .inl (.inr (.inl e.symm))
      · simp at e; exact .inl (.inr (.inr e.symm))
    by_cases hi : l.ph.index = j
    · obtain ⟨hlp, hst⟩ := ha.off hi
      rcases ha.small _ hd with e | ⟨x, e⟩
      · left
        rw [e] at hs ⊢
        simp only [Ph.scan] at hs ⊢
        obtain ⟨rfl, rfl⟩ := Prod.mk.inj hs
        exact ⟨rfl, ⟨ha.small, fun _ => ⟨hlp, hst⟩⟩, hctl false, fun _ _ => by simp⟩
      · simp only [e] at hs ⊢
        rcases scan_two h (p := { l.ph with curr := l.ph.curr + 1, status := .nomatch, i := 0 }) hi hlp x with
          ⟨k1, k2, k3, k4⟩ | ⟨k1, k2, k3, k4, k5⟩
        · left
          rw [k1]
          obtain ⟨rfl, rfl⟩ := Prod.mk.inj hs
          exact ⟨rfl, ⟨ha.small, fun _ => ⟨k2, k3⟩⟩, hctl _, fun _ _ => k4⟩
        · right
          rw [k5]
          rw [k1] at hs
          obtain ⟨rfl, rfl⟩ := Prod.mk.inj hs
          exact ⟨rfl, ⟨ha.small, k2, k3, k4⟩, rfl⟩
    · left
      have hsc := scan_eq (l.prev.get (l.ph.curr + 1)) ({ l.ph with curr := l.ph.curr + 1, status := .nomatch, i := 0 } : Ph π)
        (h.same _ hi)
      have hix := scan_index s' (l.prev.get (l.ph.curr + 1)) ({ l.ph with curr := l.ph.curr + 1, status := .nomatch, i := 0 } : Ph π)
      simp only [hsc]
      obtain ⟨rfl, rfl⟩ := Prod.mk.inj hs
      exact ⟨rfl, ⟨ha.small, fun e => absurd (hix.symm.trans e) hi⟩, hctl _, fun _ e => absurd (hix.symm.trans e) hi⟩
  · left
    rw [if_neg hn] at hs ⊢
    obtain ⟨rfl, rfl⟩ := Prod.mk.inj hs
    exact ⟨rfl, ha, fun pc e => by cases e; exact .inr rfl, by simp⟩

/-- The call, and what a match would have done. -/
theorem callrow_call (h : CallPhase s s' j alt b) {l : Loc π} (hc : Calling j alt l) {l1 : Loc π} {ctl : Ctl}
    (hs : localStep s' .interSw l = (l1, ctl)) :
    LReach s .interSw { l with ph := { l.ph with status := .subroutine, fLoop := true } } l1 ctl ∧ Apart j alt l1 ∧ ctl = .nextBegin := by
  simp only [localStep, interSw, hc.status, Static.codec, hc.index, hc.st, h.row.here] at hs
  obtain ⟨rfl, rfl⟩ := Prod.mk.inj hs
  refine ⟨?_, ⟨fun d hd => hc.small d (listFree_items _ _ d hd), fun _ => ⟨rfl, Ne.symm h.row.pos⟩⟩, rfl⟩
  refine .cons (pc1 := .interSw) rfl (by simp only [localStep, interSw, Static.codec, hc.index]; exact rfl) (.one rfl ?_)
  simp only [localStep, interSw, h.row.conv, h.reset, hc.index, Ph.reset, h.root]

/-- Whatever the table does, the codec with the call does. -/
theorem callrow_reach (h : CallPhase s s' j alt b) {pc : PC} {l l' : Loc π} {ctl : Ctl} (hr : LReach s' pc l l' ctl) :
    InterPC pc → ctl ≠ .goto .interSw →
    (Apart j alt l → (pc = .interSw → l.ph.index = j → l.ph.status ≠ .subroutine ∧ l.ph.status ≠ .submatchSubroutine) →
      LReach s pc l l' ctl ∧ Apart j alt l') ∧
    (pc = .interSw → Calling j alt l →
      LReach s pc { l with ph := { l.ph with status := .subroutine, fLoop := true } } l' ctl ∧ Apart j alt l') := by
  induction hr with
  | @one pc l l' ctl hpc hst =>
    intro hip hns
    refine ⟨fun ha hsw => ?_, fun e hc => ?_⟩
    · rcases hip with rfl | rfl | rfl
      · rcases callrow_outer h ha hst with ⟨a, b, _⟩ | ⟨a, _⟩
        · exact ⟨.one rfl a, b⟩
        · exact absurd a hns
      · obtain ⟨a, b, _⟩ := callrow_sw h ha (hsw rfl) hst
        exact ⟨.one rfl a, b⟩
      · obtain ⟨a, b, _⟩ := callrow_dead h ha hst
        exact ⟨.one rfl a, b⟩
    · subst e
      obtain ⟨a, b, _⟩ := callrow_call h hc hst
      exact ⟨a, b⟩
  | @cons pc l l1 pc1 l' ctl hpc hst hrest ih =>
    intro hip hns
    have hloc : pc1.isLocal = true := by cases hrest <;> assumption
    have hin : ∀ {c : Ctl}, InterCtl c → c = .goto pc1 → InterPC pc1 := by
      intro c hc e
      rcases hc pc1 e with k | k
      · exact k
      · rw [k] at hloc; simp at hloc
    refine ⟨fun ha hsw => ?_, fun e hc => ?_⟩
    · rcases hip with rfl | rfl | rfl
      · rcases callrow_outer h ha hst with ⟨a, b, c, d⟩ | ⟨a, b, c⟩
        · obtain ⟨i1, _⟩ := ih (hin c rfl) hns
          obtain ⟨j1, j2⟩ := i1 b (fun e => d (by rw [e]))
          exact ⟨.cons rfl a j1, j2⟩
        · obtain rfl : pc1 = .interSw := by simpa using a
          obtain ⟨_, i2⟩ := ih (.inr (.inl rfl)) hns
          obtain ⟨j1, j2⟩ := i2 rfl b
          exact ⟨.cons rfl c j1, j2⟩
      · obtain ⟨a, b, c, d⟩ := callrow_sw h ha (hsw rfl) hst
        obtain ⟨i1, _⟩ := ih (hin c rfl) hns
        obtain ⟨j1, j2⟩ := i1 b (fun e k => absurd k (d (by rw [e])))
        exact ⟨.cons rfl a j1, j2⟩
      · obtain ⟨a, b, c, d⟩ := callrow_dead h ha hst
        obtain ⟨i1, _⟩ := ih (hin c rfl) hns
        obtain ⟨j1, j2⟩ := i1 b (fun e => absurd (by rw [e]) d)
        exact ⟨.cons rfl a j1, j2⟩
    · subst e
      obtain ⟨_, _, a⟩ := callrow_call h hc hst
      simp at a

theorem mem_small {ds : List Datum} : (∀ d ∈ nonEmpty ds, Small d) ↔ ∀ d ∈ ds, d = [] ∨ Small d := by
  constructor
  · intro h d hd
    by_cases e : d = []
    · exact .inl e
    · exact .inr (h d (mem_nonEmpty.2 ⟨hd, e⟩))
  · intro h d hd
    obtain ⟨h1, h2⟩ := mem_nonEmpty.1 hd
    rcases h d h1 with k | k
    · exact absurd k h2
    · exact k

/-- The kind of phase, with the call. -/
def callKind (h : CallPhase s s' j alt b) (K : Kind s') : Kind s where
  Inv := fun F l rem fut => K.Inv F l rem fut ∧ Apart j alt l ∧ ∀ d ∈ nonEmpty fut, Small d
  dec := K.dec
  pads := K.pads
  rank := K.rank
  qok := fun k => K.qok k.1
  visit := by
    rintro F l rem fut ⟨k, ha, hf⟩
    have ht : s.type.outer = s'.type.outer := by rw [h.type, h.type']
    have hto : s'.type.outer = .interOuter := by rw [h.type']; rfl
    rcases K.visit k with ⟨l', ctl, a1, a2, a3, a4, a5⟩ | ⟨l', ctl, F', rem', em, a1, a2, a3⟩
    · left
      obtain ⟨b1, _⟩ := callrow_reach h a1 (by rw [hto]; exact .inl rfl) (by rcases a2 with rfl | rfl <;> simp)
      obtain ⟨c1, c2⟩ := b1 ha (fun e => by rw [hto] at e; cases e)
      exact ⟨l', ctl, by rw [ht]; exact c1, a2, ⟨⟨a3.inv, c2, hf⟩, a3.q, a3.ierr, a3.oerr, a3.head, a3.consumed, a3.plen, a3.pads, a3.rank⟩, a4, a5⟩
    · right
      obtain ⟨b1, _⟩ := callrow_reach h a1 (by rw [hto]; exact .inl rfl)
        (by rw [h.type'] at a2; rcases a2 with rfl | rfl | rfl <;> simp [PType.outer])
      obtain ⟨c1, c2⟩ := b1 ha (fun e => by rw [hto] at e; cases e)
      exact ⟨l', ctl, F', rem', em, by rw [ht]; exact c1, by rw [h.type]; rw [h.type'] at a2; exact a2,
        ⟨⟨a3.inv, c2, hf⟩, a3.q, a3.bytes, a3.head, a3.consumed, a3.plen, a3.inErr_le, a3.out, a3.ierr, a3.oerr, a3.fin, a3.measure⟩⟩
  flush := by
    rintro F l rem fut ⟨k, ha, hf⟩ h1 h2 h3
    have ht : s.type.dead = s'.type.dead := by rw [h.type, h.type']
    have hto : s'.type.dead = .interDead := by rw [h.type']; rfl
    rcases K.flush k h1 h2 h3 with ⟨l', ctl, a1, a2, a3, a4⟩ | ⟨l', ctl, F', rem', em, a1, a2, a3⟩
    · left
      obtain ⟨b1, _⟩ := callrow_reach h a1 (by rw [hto]; exact .inr (.inr rfl)) (by rcases a2 with rfl | rfl <;> simp)
      obtain ⟨c1, c2⟩ := b1 ha (fun e => by rw [hto] at e; cases e)
      exact ⟨l', ctl, by rw [ht]; exact c1, a2, ⟨⟨a3.inv, c2, hf⟩, a3.q, a3.ierr, a3.oerr, a3.head, a3.consumed, a3.plen, a3.pads, a3.rank⟩, a4⟩
    · right
      obtain ⟨b1, _⟩ := callrow_reach h a1 (by rw [hto]; exact .inr (.inr rfl))
        (by rw [h.type'] at a2; rcases a2 with rfl | rfl | rfl <;> simp [PType.outer])
      obtain ⟨c1, c2⟩ := b1 ha (fun e => by rw [hto] at e; cases e)
      exact ⟨l', ctl, F', rem', em, by rw [ht]; exact c1, by rw [h.type]; rw [h.type'] at a2; exact a2,
        ⟨⟨a3.inv, c2, hf⟩, a3.q, a3.bytes, a3.head, a3.consumed, a3.plen, a3.inErr_le, a3.out, a3.ierr, a3.oerr, a3.fin, a3.measure⟩⟩
  append := by
    rintro F l l' rem fut em fut' ⟨k, ha, hf⟩ h1 h2 h3 h4 h5 h6
    rw [h1] at hf
    refine ⟨K.append k h1 h2 h3 h4 h5 h6, ⟨?_, by rw [h3]; exact ha.off⟩, fun d hd => hf d (by simp [hd])⟩
    rw [h2, (Queue.pushAll_ok (K.qok k).2.1 em).2]
    intro d hd
    rcases List.mem_append.1 hd with hd | hd
    · exact ha.small d hd
    · exact mem_small.1 (fun x hx => hf x (by simp [hx])) d hd
  frame := by
    rintro F l l' rem fut ⟨k, ha, hf⟩ h1 h2 h3 h4
    exact ⟨K.frame k h1 h2 h3 h4, ⟨by rw [h1]; exact ha.small, by rw [h3]; exact ha.off⟩, hf⟩
  rank_frame := K.rank_frame
  pads_frame := K.pads_frame
  pads_append := fun k => K.pads_append k.1
  idle := fun k => K.idle k.1
  noIn := by
    intro hd F l rem fut k
    exact K.noIn hd k.1

/-- A table with a row `… ?` realises what the table with the callback's data in place of `?` does, on data `01 xx`. -/
theorem call_realises (h : CallPhase s s' j alt b) {i : (Nat → π) → Prop} {P : Proc π} (hP : Realises s' i P) :
    Realises s i { P with ok := fun ds => P.ok ds ∧ ∀ d ∈ nonEmpty ds, Small d } := by
  obtain ⟨K, F, h1, h2, h3⟩ := hP
  refine ⟨callKind h K, F, h1, ?_, ?_⟩
  · intro ds hb hok
    have := h2 ds hb hok.1
    exact ⟨this.out, this.inE, this.outE, this.fin, this.bytes⟩
  · intro l fut hb hl hi hok
    refine ⟨h3 l fut hb hl hi hok.1, ⟨by rw [hl.prev]; simp [Queue.empty], fun _ => ⟨hl.fLoop, by rw [hl.st]; exact Ne.symm h.row.pos⟩⟩, hok.2⟩

end Verif.Engine
