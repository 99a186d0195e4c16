import Verif.Proofs.EngineCall
import Verif.Proofs.ReaderMember
import Verif.Model.Callback

/-! Two instances that differ only in what `bsdconv_init` leaves behind run in lockstep: the pointer `bak` while nothing
is remembered, the position `i` while nothing is pending, and the error counters. -/

namespace Verif.Engine
open Verif.Spec

variable {π : Type} {E : Nat → π → π → Prop}

/-- What a callback sees, twice: equal up to an unused `bak` and the values of the error counters. -/
def LSim (E : Nat → π → π → Prop) (x y : Nat) (l m : Loc π) : Prop :=
  ∃ b p, (l.ph.matchData ≠ [] → b = l.ph.bak) ∧ (∀ j, E j (l.ph.priv j) (p j)) ∧
    m = { l with ph := { l.ph with bak := b, priv := p }, ierr := l.ierr + x, oerr := l.oerr + y }

/-- As `LSim`, and `i` may differ too. -/
def OSim (E : Nat → π → π → Prop) (x y : Nat) (l m : Loc π) : Prop :=
  ∃ b i p, (l.ph.matchData ≠ [] → b = l.ph.bak) ∧ (∀ j, E j (l.ph.priv j) (p j)) ∧
    m = { l with ph := { l.ph with bak := b, i := i, priv := p }, ierr := l.ierr + x, oerr := l.oerr + y }

theorem LSim.toO {x y : Nat} {l m : Loc π} (h : LSim E x y l m) : OSim E x y l m := by
  obtain ⟨b, p, hb, hp, rfl⟩ := h
  exact ⟨b, l.ph.i, p, hb, hp, rfl⟩

/-- The callbacks of codec `j` depend neither on the error counters nor on an unused `bak`, and cannot tell private data
related by `E j` apart. -/
structure Clean (E : Nat → π → π → Prop) (j : Nat) (c : Codec π) : Prop where
  conv : ∀ x y l m, l.ph.index = j → LSim E x y l m → LSim E x y (c.conv l) (c.conv m)
  flush : ∀ f, c.flush = some f → ∀ x y l m, l.ph.index = j → LSim E x y l m → LSim E x y (f l) (f m)

theorem scan_sim (s : Static π) (cs : List Nat) (p : Ph π) (b : Nat) (r : Nat → π) :
    Ph.scan s { p with bak := b, priv := r } cs = ((p.scan s cs).1, { (p.scan s cs).2 with bak := b, priv := r }) ∧
      (p.scan s cs).2.matchData = p.matchData ∧ (p.scan s cs).2.bak = p.bak ∧ (p.scan s cs).2.priv = p.priv := by
  induction cs generalizing p with
  | nil => exact ⟨rfl, rfl, rfl, rfl⟩
  | cons c cs ih =>
    simp only [Ph.scan]
    have e : Ph.advance s { p with bak := b, priv := r } c = { p.advance s c with bak := b, priv := r } := rfl
    rw [e]
    have em : (p.advance s c).matchData = p.matchData := rfl
    have eb : (p.advance s c).bak = p.bak := rfl
    have er : (p.advance s c).priv = p.priv := rfl
    generalize p.advance s c = p' at em eb er ⊢
    obtain ⟨x1, x2, x3, x4, x5, x6, x7, x8, x9, x10, x11, x12, x13, x14⟩ := p'
    cases x4 <;> simp only [] <;> first
      | exact ⟨trivial, em, eb, er⟩
      | exact ⟨(ih ⟨x1, x2, x3, _, x5, x6, x7, x8, x9, x10, x11 + 1, x12, x13, x14⟩).1, (ih _).2.1.trans em,
          (ih _).2.2.1.trans eb, (ih _).2.2.2.trans er⟩
      | exact ⟨(ih ⟨x1, x2, x3, _, x5, x6, true, x8, x9, x10, x11 + 1, x12, x13, x14⟩).1, (ih _).2.1.trans em,
          (ih _).2.2.1.trans eb, (ih _).2.2.2.trans er⟩

theorem itOuter_sim (s : Static π) (sw dead : PC) {x y : Nat} {l m : Loc π} (h : OSim E x y l m) :
    (itOuter s m sw dead).2 = (itOuter s l sw dead).2 ∧ 
    ((itOuter s l sw dead).2 = .goto .leave ∧ (itOuter s l sw dead).1 = l ∧ (itOuter s m sw dead).1 = m ∨
      LSim E x y (itOuter s l sw dead).1 (itOuter s m sw dead).1) := by
  obtain ⟨b, i, p, hb, hp, rfl⟩ := h
  unfold itOuter
  by_cases hn : l.prev.hasNext l.ph.curr = true
  · simp only [hn, if_true]
    obtain ⟨h1, h2, h3, h4⟩ := scan_sim s (l.prev.get (l.ph.curr + 1))
      { l.ph with curr := l.ph.curr + 1, status := .nomatch, i := 0 } b p
    rw [h1]
    refine ⟨rfl, .inr ⟨b, p, ?_, fun j => by simp only [h4]; exact hp j, rfl⟩⟩
    intro hne
    simp only [] at hne ⊢
    rw [h2] at hne
    rw [h3]
    exact hb hne
  · simp only [hn]
    exact ⟨rfl, .inl ⟨rfl, rfl, rfl⟩⟩

theorem fromOuter_sim {x y : Nat} {l m : Loc π} (h : OSim E x y l m) :
    (fromOuter m).2 = (fromOuter l).2 ∧ 
    ((fromOuter l).2 = .goto .leave ∧ (fromOuter l).1 = l ∧ (fromOuter m).1 = m ∨
      LSim E x y (fromOuter l).1 (fromOuter m).1) := by
  obtain ⟨b, i, p, hb, hp, rfl⟩ := h
  unfold fromOuter
  by_cases hn : l.prev.hasNext l.ph.curr = true
  · simp only [hn, if_true]
    exact ⟨trivial, .inr ⟨b, p, hb, hp, rfl⟩⟩
  · simp only [hn]
    exact ⟨rfl, .inl ⟨rfl, rfl, rfl⟩⟩

theorem emitMatch_sim {s : Static π} (hs : ∀ j, Clean E j (s.codecs j)) (f : Bool) {x y : Nat} {l m : Loc π}
    (h : LSim E x y l m) : LSim E x y (emitMatch s l f) (emitMatch s m f) := by
  have h0 := h
  obtain ⟨b, p, hb, hp, rfl⟩ := h
  obtain ⟨pv, hl, ⟨x1, x2, x3, x4, x5, x6, x7, x8, x9, x10, x11, x12, x13, x14⟩, ie, oe⟩ := l
  unfold emitMatch
  have key : ∀ a c, LSim E x y a c → LSim E x y
      { a with ph := Ph.reset s { a.ph with fMatch := false } }
      { c with ph := Ph.reset s { c.ph with fMatch := false } } := by
    rintro a _ ⟨b, p, hb, hp, rfl⟩
    exact ⟨b, p, hb, hp, rfl⟩
  cases x8 with
  | nil =>
    simp only [ne_eq, not_true, if_false, Static.codec] at h0 ⊢
    apply key
    cases hf : (s.codecs x1).flush with
    | none => exact h0
    | some g => exact (hs x1).flush g hf x y _ _ rfl h0
  | cons a t =>
    have := hb (by simp)
    simp only [] at this
    subst this
    simp only [ne_eq, reduceCtorEq, not_false_eq_true, if_true]
    exact ⟨b, p, fun _ => rfl, hp, rfl⟩

/-- Program points at which `i` is in use. -/
def PC.inside : PC → Bool
  | .fromInner | .fromSw | .fromDead | .interSw | .interDead | .toSw | .toDead => true
  | _ => false

theorem itSep_sim (s : Static π) (o d : PC) {x y : Nat} {l m : Loc π} (h : LSim E x y l m) :
    (itSep s m o d).2 = (itSep s l o d).2 ∧ LSim E x y (itSep s l o d).1 (itSep s m o d).1 := by
  obtain ⟨b, p, hb, hp, rfl⟩ := h
  exact ⟨rfl, b, p, hb, hp, rfl⟩

theorem itSubmatch_sim (s : Static π) {x y : Nat} {l m : Loc π} (h : LSim E x y l m) :
    LSim E x y (itSubmatch s l) (itSubmatch s m) := by
  obtain ⟨b, p, hb, hp, rfl⟩ := h
  unfold itSubmatch
  by_cases hn : l.prev.hasNext l.ph.curr = true
  · simp only [hn, if_true]
    exact ⟨l.ph.curr + 1, p, fun _ => rfl, hp, rfl⟩
  · simp only [hn, if_false]
    exact ⟨l.prev.tail + 1, p, fun _ => rfl, hp, rfl⟩

theorem inside_sim {s : Static π} (hs : ∀ j, Clean E j (s.codecs j)) {pc : PC} (hin : pc.inside = true) {x y : Nat}
    {l m : Loc π} (h : LSim E x y l m) :
    (localStep s pc m).2 = (localStep s pc l).2 ∧ LSim E x y (localStep s pc l).1 (localStep s pc m).1 := by
  have h0 := h
  obtain ⟨b, p, hb, hp, rfl⟩ := h
  obtain ⟨pv, hl, ⟨x1, x2, x3, x4, x5, x6, x7, x8, x9, x10, x11, x12, x13, x14⟩, ie, oe⟩ := l
  cases pc <;> simp only [PC.inside, Bool.false_eq_true] at hin <;> simp only [localStep]
  case fromInner =>
    unfold fromInner
    simp only []
    by_cases h1 : x9 = 0
    · subst h1
      simp only [if_true]
      by_cases h2 : x11 < hl
      · simp only [h2, if_true]; exact ⟨trivial, b, p, hb, hp, rfl⟩
      · simp only [h2, if_false]; exact ⟨trivial, b, p, hb, hp, rfl⟩
    · simp only [h1, if_false]
      by_cases h2 : x11 < (pv.get x9).length
      · simp only [h2, dif_pos]; exact ⟨trivial, b, p, hb, hp, rfl⟩
      · simp only [h2]; exact ⟨rfl, b, p, hb, hp, rfl⟩
  case fromSw =>
    unfold fromSw
    have hc := (hs x1).conv x y _ _ rfl h0
    cases x4 <;> simp only [Static.codec] at hc ⊢
    case subroutine =>
      obtain ⟨b', p', hb', hp', e⟩ := hc
      exact ⟨trivial, b', p', hb', hp', by rw [e]⟩
    case submatchSubroutine =>
      obtain ⟨b', p', hb', hp', e⟩ := hc
      exact ⟨trivial, b', p', hb', hp', by rw [e]⟩
    case submatch => exact ⟨trivial, x9, p, fun _ => rfl, hp, rfl⟩
    case match_ => exact ⟨trivial, x9, p, fun _ => rfl, hp, rfl⟩
    case nextphase => exact ⟨trivial, x9, p, fun _ => rfl, hp, rfl⟩
    all_goals exact ⟨trivial, b, p, hb, hp, rfl⟩
  case interSw =>
    unfold interSw
    have hc := (hs x1).conv x y _ _ rfl h0
    cases x4 <;> simp only [Static.codec] at hc ⊢
    case subroutine => exact ⟨trivial, hc⟩
    case submatchSubroutine => exact ⟨trivial, hc⟩
    case submatch => exact itSep_sim s _ _ (itSubmatch_sim s h0)
    case match_ => exact ⟨trivial, x9 + 1, p, fun _ => rfl, hp, rfl⟩
    case nextphase => exact ⟨trivial, x9 + 1, p, fun _ => rfl, hp, rfl⟩
    case cont => exact itSep_sim s _ _ ⟨b, p, hb, hp, rfl⟩
    all_goals exact ⟨trivial, b, p, hb, hp, rfl⟩
  case toSw =>
    unfold toSw
    have hc := (hs x1).conv x y _ _ rfl h0
    cases x4 <;> simp only [Static.codec] at hc ⊢
    case subroutine => exact ⟨trivial, hc⟩
    case submatchSubroutine => exact ⟨trivial, hc⟩
    case submatch => exact itSep_sim s _ _ (itSubmatch_sim s h0)
    case match_ => exact ⟨trivial, x9 + 1, p, fun _ => rfl, hp, rfl⟩
    case nextphase => exact ⟨trivial, x9 + 1, p, fun _ => rfl, hp, rfl⟩
    case cont => exact itSep_sim s _ _ ⟨b, p, hb, hp, rfl⟩
    all_goals exact ⟨trivial, b, p, hb, hp, rfl⟩
  case fromDead =>
    unfold fromDead
    cases x5 with
    | true =>
      simp only [if_true]
      exact ⟨trivial, emitMatch_sim hs true ⟨b, p, hb, hp, rfl⟩⟩
    | false =>
      simp only [Bool.false_eq_true, if_false]
      by_cases hi : x1 < s.codecn
      · simp only [hi, if_true]; exact ⟨trivial, b, p, hb, hp, rfl⟩
      · simp only [hi, if_false]
        refine ⟨trivial, 0, p, fun _ => rfl, hp, ?_⟩
        simp only [Nat.add_right_comm ie x 1]
        rfl
  case interDead =>
    unfold interDead
    cases x5 with
    | true =>
      simp only [if_true]
      exact ⟨trivial, emitMatch_sim hs false ⟨b, p, hb, hp, rfl⟩⟩
    | false =>
      simp only [Bool.false_eq_true, if_false]
      by_cases hi : x1 < s.codecn
      · simp only [hi, if_true]; exact ⟨trivial, b, p, hb, hp, rfl⟩
      · simp only [hi, if_false]
        obtain ⟨is, tl⟩ := pv
        cases is with
        | nil => exact ⟨rfl, b, p, hb, hp, rfl⟩
        | cons d ds => exact ⟨rfl, b, p, hb, hp, rfl⟩
  case toDead =>
    unfold toDead
    cases x5 with
    | true =>
      simp only [if_true]
      exact ⟨trivial, emitMatch_sim hs false ⟨b, p, hb, hp, rfl⟩⟩
    | false =>
      simp only [Bool.false_eq_true, if_false]
      by_cases hi : x1 < s.codecn
      · simp only [hi, if_true]; exact ⟨trivial, b, p, hb, hp, rfl⟩
      · simp only [hi, if_false]
        refine ⟨trivial, 0, p, fun _ => rfl, hp, ?_⟩
        simp only [Nat.add_right_comm oe y 1]
        rfl

/-- A phase, twice. -/
def PSim (E : Nat → π → π → Prop) (p q : Ph π) : Prop :=
  ∃ b i r, (p.matchData ≠ [] → b = p.bak) ∧ (p.fPending = true → i = p.i) ∧ (∀ j, E j (p.priv j) (r j)) ∧
    q = { p with bak := b, i := i, priv := r }

variable {F : Nat → Nat → π → π → Prop}

/-- An instance, twice. -/
structure ISim (F : Nat → Nat → π → π → Prop) (x y : Nat) (a b : Ins π) : Prop where
  ph : ∀ k, PSim (F k) (a.ph k) (b.ph k)
  phasen : b.phasen = a.phasen
  pidx : b.pidx = a.pidx
  flush : b.flush = a.flush
  ierr : b.ierr = a.ierr + x
  oerr : b.oerr = a.oerr + y

/-- A configuration, twice. -/
structure CSim (F : Nat → Nat → π → π → Prop) (x y : Nat) (c d : Ins π × PC) : Prop where
  ins : ISim F x y c.1 d.1
  pc : d.2 = c.2
  i : c.2.inside = true → (d.1.ph d.1.pidx).i = (c.1.ph c.1.pidx).i

theorem ISim.locO {x y : Nat} {a b : Ins π} (h : ISim F x y a b) : OSim (F a.pidx) x y a.loc b.loc := by
  obtain ⟨u, i, r, h1, _, hr, h3⟩ := h.ph a.pidx
  obtain ⟨u', i', r', _, _, _, h3'⟩ := h.ph (a.pidx - 1)
  refine ⟨u, i, r, h1, hr, ?_⟩
  simp only [Ins.loc, h.pidx, h.ierr, h.oerr]
  rw [h3, h3']

theorem ISim.locL {x y : Nat} {a b : Ins π} (h : ISim F x y a b) (hi : (b.ph b.pidx).i = (a.ph a.pidx).i) :
    LSim (F a.pidx) x y a.loc b.loc := by
  obtain ⟨u, i, r, h1, hr, h2⟩ := h.locO
  have : i = a.loc.ph.i := by
    have : b.loc.ph.i = i := by rw [h2]
    rw [← this]; exact hi
  subst this
  exact ⟨u, r, h1, hr, h2⟩

theorem ISim.put {x y : Nat} {a b : Ins π} (h : ISim F x y a b) {l m : Loc π} (hl : LSim (F a.pidx) x y l m) :
    ISim F x y (a.putLoc l) (b.putLoc m) := by
  obtain ⟨u, r, hu, hr, rfl⟩ := hl
  refine ⟨?_, h.phasen, h.pidx, h.flush, rfl, rfl⟩
  intro k
  simp only [Ins.putLoc, h.pidx]
  by_cases h1 : k = a.pidx
  · subst h1
    simp only [if_true]
    exact ⟨u, l.ph.i, r, hu, fun _ => rfl, hr, rfl⟩
  · simp only [h1, if_false]
    by_cases h2 : k + 1 = a.pidx
    · simp only [h2, if_true]
      obtain ⟨u, i, r, h1, h2, hr, h3⟩ := h.ph k
      rw [h3]
      exact ⟨u, i, r, h1, h2, hr, rfl⟩
    · simp only [h2, if_false]
      exact h.ph k

theorem put_loc (a : Ins π) (k : Nat) : (a.putLoc a.loc).ph k = a.ph k := by
  simp only [Ins.putLoc, Ins.loc]
  by_cases h1 : k = a.pidx
  · simp [h1]
  · simp only [h1, if_false]
    by_cases h2 : k + 1 = a.pidx
    · have : a.pidx - 1 = k := by omega
      simp [h2, this]
    · simp [h2]

theorem ISim.put_same {x y : Nat} {a b : Ins π} (h : ISim F x y a b) : ISim F x y (a.putLoc a.loc) (b.putLoc b.loc) := by
  refine ⟨?_, h.phasen, h.pidx, h.flush, h.ierr, h.oerr⟩
  intro k
  rw [put_loc, put_loc]
  exact h.ph k

theorem ISim.setIdx {x y : Nat} {a b : Ins π} (h : ISim F x y a b) (k : Nat) :
    ISim F x y { a with pidx := k } { b with pidx := k } := ⟨h.ph, h.phasen, rfl, h.flush, h.ierr, h.oerr⟩

theorem findBack_sim {x y : Nat} {a b : Ins π} (h : ISim F x y a b) (n : Nat) : b.findBack n = a.findBack n := by
  induction n with
  | zero => rfl
  | succ n ih =>
    simp only [Ins.findBack]
    obtain ⟨u, i, r, _, _, _, h3⟩ := h.ph (n + 1)
    obtain ⟨u', i', r', _, _, _, h3'⟩ := h.ph n
    rw [h3, h3', ih]

theorem findPending_sim {x y : Nat} {a b : Ins π} (h : ISim F x y a b) (k n : Nat) :
    b.findPending k n = a.findPending k n := by
  induction n generalizing k with
  | zero => rfl
  | succ n ih =>
    simp only [Ins.findPending]
    obtain ⟨u, i, r, _, _, _, h3⟩ := h.ph k
    rw [h3, ih]

/-- One local step of two such instances. -/
theorem local_sim {st : Nat → Static π} (hs : ∀ k j, Clean (F k) j ((st k).codecs j)) {x y : Nat} {a b : Ins π} {pc : PC}
    (h : CSim F x y (a, pc) (b, pc)) (hl : pc.isLocal = true) : CSim F x y (step st (a, pc)) (step st (b, pc)) := by
  have hi := h.ins
  simp only [] at hi
  have key : ∀ l m (r : Ctl), LSim (F a.pidx) x y l m → 
      CSim F x y
        (match r with | .goto pc' => (a.putLoc l, pc') | .nextBegin => ({ a.putLoc l with pidx := (a.putLoc l).pidx + 1 }, .begin))
        (match r with | .goto pc' => (b.putLoc m, pc') | .nextBegin => ({ b.putLoc m with pidx := (b.putLoc m).pidx + 1 }, .begin)) := by
    intro l m r hlm
    cases r with
    | goto pc' =>
      refine ⟨hi.put hlm, rfl, fun _ => ?_⟩
      obtain ⟨u, r, _, _, rfl⟩ := hlm
      simp [Ins.putLoc]
    | nextBegin =>
      have e : (b.putLoc m).pidx = (a.putLoc l).pidx := hi.pidx
      refine ⟨?_, rfl, fun hin => by simp [PC.inside] at hin⟩
      rw [e]
      exact (hi.put hlm).setIdx _
  have out : ∀ (f : Loc π → Loc π × Ctl), (f b.loc).2 = (f a.loc).2 ∧
      ((f a.loc).2 = .goto .leave ∧ (f a.loc).1 = a.loc ∧ (f b.loc).1 = b.loc ∨ LSim (F a.pidx) x y (f a.loc).1 (f b.loc).1) →
      CSim F x y
        (match (f a.loc).2 with
          | .goto pc' => (a.putLoc (f a.loc).1, pc')
          | .nextBegin => ({ a.putLoc (f a.loc).1 with pidx := (a.putLoc (f a.loc).1).pidx + 1 }, .begin))
        (match (f b.loc).2 with
          | .goto pc' => (b.putLoc (f b.loc).1, pc')
          | .nextBegin => ({ b.putLoc (f b.loc).1 with pidx := (b.putLoc (f b.loc).1).pidx + 1 }, .begin)) := by
    rintro f ⟨h1, h2⟩
    rw [h1]
    rcases h2 with ⟨h2, h3, h4⟩ | h2
    · rw [h2, h3, h4]
      exact ⟨hi.put_same, rfl, fun hin => by simp [PC.inside] at hin⟩
    · exact key _ _ _ h2
  have ins : pc.inside = true → CSim F x y (step st (a, pc)) (step st (b, pc)) := by
    intro hin
    obtain ⟨h1, h2⟩ := inside_sim (s := st a.pidx) (hs _) hin (hi.locL (h.i hin))
    have e : ∀ c : Ins π, step st (c, pc) =
        match (localStep (st c.pidx) pc c.loc).2 with
        | .goto pc' => (c.putLoc (localStep (st c.pidx) pc c.loc).1, pc')
        | .nextBegin => ({ c.putLoc (localStep (st c.pidx) pc c.loc).1 with
            pidx := (c.putLoc (localStep (st c.pidx) pc c.loc).1).pidx + 1 }, .begin) := by
      intro c
      cases pc <;> simp only [PC.inside, Bool.false_eq_true] at hin <;> rfl
    rw [e, e, hi.pidx, h1]
    exact key _ _ _ h2
  cases pc <;> simp only [PC.isLocal, Bool.false_eq_true] at hl
  case fromOuter => exact out fromOuter (fromOuter_sim hi.locO)
  case interOuter =>
    have := out (fun l => itOuter (st a.pidx) l .interSw .interDead) (itOuter_sim _ _ _ hi.locO)
    simp only [step, localStep, hi.pidx] at this ⊢
    exact this
  case toOuter =>
    have := out (fun l => itOuter (st a.pidx) l .toSw .toDead) (itOuter_sim _ _ _ hi.locO)
    simp only [step, localStep, hi.pidx] at this ⊢
    exact this
  all_goals exact ins rfl

theorem step_sim {st : Nat → Static π} (hs : ∀ k j, Clean (F k) j ((st k).codecs j)) {x y : Nat} {c d : Ins π × PC}
    (h : CSim F x y c d) : CSim F x y (step st c) (step st d) := by
  obtain ⟨a, pc⟩ := c
  obtain ⟨b, pc'⟩ := d
  have hp : pc' = pc := h.pc
  subst hp
  by_cases hl : pc'.isLocal = true
  · exact local_sim hs h hl
  have hi := h.ins
  simp only [] at hi
  cases pc' <;> simp only [PC.isLocal, not_true] at hl
  case done => exact h
  case ub => exact h
  case begin =>
    simp only [step, hi.pidx, hi.phasen]
    by_cases h1 : 0 < a.pidx ∧ a.pidx ≤ a.phasen
    · rw [if_pos h1, if_pos h1]
      refine ⟨hi, rfl, fun hin => ?_⟩
      cases ht : (st a.pidx).type <;> simp [ht, PType.outer, PC.inside] at hin
    · rw [if_neg h1, if_neg h1]
      exact ⟨hi, rfl, fun hin => by simp [PC.inside] at hin⟩
  case leave =>
    simp only [step, hi.pidx]
    exact ⟨hi.setIdx _, rfl, fun hin => by simp [PC.inside] at hin⟩
  case checkBack =>
    simp only [step, hi.phasen, findBack_sim hi]
    cases a.findBack a.phasen with
    | none => exact ⟨⟨hi.ph, by first | rfl | exact hi.phasen, rfl, by first | rfl | exact hi.flush | simp [hi.flush, hf], hi.ierr, hi.oerr⟩, rfl, fun hin => by simp [PC.inside] at hin⟩
    | some k => exact ⟨⟨hi.ph, by first | rfl | exact hi.phasen, rfl, by first | rfl | exact hi.flush | simp [hi.flush, hf], hi.ierr, hi.oerr⟩, rfl, fun hin => by simp [PC.inside] at hin⟩
  case flushScan =>
    simp only [step, hi.phasen, hi.flush, findPending_sim hi]
    cases hf : a.flush with
    | false =>
      simp only [Bool.false_eq_true, if_false]
      exact ⟨hi, rfl, fun hin => by simp [PC.inside] at hin⟩
    | true =>
      simp only [if_true]
      cases hq : a.findPending 1 a.phasen with
      | none => 
        exact ⟨⟨hi.ph, by first | rfl | exact hi.phasen, rfl, by first | rfl | exact hi.flush | simp [hi.flush, hf], hi.ierr, hi.oerr⟩, rfl, fun hin => by simp [PC.inside] at hin⟩
      | some k =>
        refine ⟨⟨hi.ph, by first | rfl | exact hi.phasen, rfl, by first | rfl | exact hi.flush | simp [hi.flush, hf], hi.ierr, hi.oerr⟩, rfl, fun _ => ?_⟩
        obtain ⟨u, i, r, _, h2, _, h3⟩ := hi.ph k
        simp only [h3]
        exact h2 (findPending_some hq).2.2.1

theorem run_sim {st : Nat → Static π} (hs : ∀ k j, Clean (F k) j ((st k).codecs j)) {x y : Nat} (n : Nat) {c d : Ins π × PC}
    (h : CSim F x y c d) : CSim F x y (run st n c) (run st n d) := by
  induction n generalizing c d with
  | zero => exact h
  | succ n ih => exact ih (step_sim hs h)

theorem start_sim {x y : Nat} {a b : Ins π} (h : ISim F x y a b) (g : Arg) :
    CSim F x y (a.start (g.input.map (fun x => (x, []))) g.flush) (b.start (g.input.map (fun x => (x, []))) g.flush) := by
  refine ⟨⟨?_, ?_, rfl, rfl, ?_, ?_⟩, rfl, fun hin => by simp [Ins.start, PC.inside] at hin⟩
  · intro k
    cases g.input with
    | none => exact h.ph k
    | some c =>
      simp only [Ins.start, Option.map_some, Ins.feed]
      by_cases hk : k = 0
      · simp only [hk, if_true]
        obtain ⟨u, i, r, e1, e2, er, e3⟩ := h.ph 0
        rw [e3]
        exact ⟨u, i, r, e1, e2, er, rfl⟩
      · simp only [hk, if_false]
        exact h.ph k
  · cases g.input <;> exact h.phasen
  · cases g.input <;> exact h.ierr
  · cases g.input <;> exact h.oerr

theorem call_sim {st : Nat → Static π} (hs : ∀ k j, Clean (F k) j ((st k).codecs j)) {x y : Nat} {a b a' : Ins π} {g : Arg}
    {d : Delivery} (h : ISim F x y a b) (hc : Call st a g d a') : ∃ b', Call st b g d b' ∧ ISim F x y a' b' := by
  obtain ⟨m, a1, h1, h2, h3⟩ := hc
  have h0 := start_sim h g
  have h4 := run_sim hs m h0
  rw [h1] at h4
  cases hr : run st m (b.start (g.input.map (fun x => (x, []))) g.flush) with
  | mk b1 pc1 =>
    rw [hr] at h4
    have hpc : pc1 = .done := h4.pc
    subst hpc
    have hi := h4.ins
    simp only [] at hi
    obtain ⟨u, i, r, e1, e2, er, e3⟩ := hi.ph a1.phasen
    have eq : (b1.ph b1.phasen).q = (a1.ph a1.phasen).q := by rw [hi.phasen, e3]
    have ec : (b1.ph b1.phasen).consumed = (a1.ph a1.phasen).consumed := by rw [hi.phasen, e3]
    refine ⟨_, ⟨m, b1, hr, ?_, rfl⟩, ?_⟩
    · rw [eq, ec]; exact h2
    · rw [h3, eq, ec]
      refine ⟨?_, hi.phasen, hi.pidx, hi.flush, hi.ierr, hi.oerr⟩
      intro k
      simp only [Ins.setLast, hi.phasen]
      obtain ⟨u, i, r, e1, e2, er, e3⟩ := hi.ph k
      by_cases hk : k = a1.phasen
      · simp only [hk, if_true]
        rw [hk] at e1 e2 er e3
        rw [e3]
        exact ⟨u, i, r, e1, e2, er, rfl⟩
      · simp only [hk, if_false]
        exact hi.ph k

/-- The other direction. -/
theorem call_sim_back {st : Nat → Static π} (hs : ∀ k j, Clean (F k) j ((st k).codecs j)) {x y : Nat} {a b b' : Ins π}
    {g : Arg} {d : Delivery} (h : ISim F x y a b) (hc : Call st b g d b') : ∃ a', Call st a g d a' ∧ ISim F x y a' b' := by
  obtain ⟨m, b1, h1, h2, h3⟩ := hc
  have h4 := run_sim hs m (start_sim h g)
  rw [h1] at h4
  cases hr : run st m (a.start (g.input.map (fun x => (x, []))) g.flush) with
  | mk a1 pc1 =>
    rw [hr] at h4
    have hpc : pc1 = .done := h4.pc.symm
    subst hpc
    obtain ⟨b2, h5, h6⟩ := call_sim hs h ⟨m, a1, hr, rfl, rfl⟩
    obtain ⟨e1, e2⟩ := h5.unique ⟨m, b1, h1, h2, h3⟩
    subst e2
    exact ⟨_, ⟨m, a1, hr, e1.symm, rfl⟩, h6⟩

theorem session_sim {st : Nat → Static π} (hs : ∀ k j, Clean (F k) j ((st k).codecs j)) {x y : Nat} {a a' : Ins π} {gs : List Arg}
    {ds : List Delivery} (hc : Session st a gs ds a') {b : Ins π} (h : ISim F x y a b) :
    ∃ b', Session st b gs ds b' ∧ ISim F x y a' b' := by
  induction hc generalizing b with
  | nil => exact ⟨b, .nil b, h⟩
  | cons h1 _ ih =>
    obtain ⟨b1, hb1, hi⟩ := call_sim hs h h1
    obtain ⟨b2, hb2, hi2⟩ := ih hi
    exact ⟨b2, .cons hb1 hb2, hi2⟩

/-- Two sessions of similar instances, the other way round. -/
theorem ISim.same {x y : Nat} {a b : Ins π} (h : ISim F x y a b) {st : Nat → Static π}
    (hs : ∀ k j, Clean (F k) j ((st k).codecs j)) {gs : List Arg} {ds ds' : List Delivery} {a' b' : Ins π}
    (h1 : Session st a gs ds a') (h2 : Session st b gs ds' b') :
    ds' = ds ∧ b'.pending = a'.pending ∧ b'.ierr = a'.ierr + x ∧ b'.oerr = a'.oerr + y := by
  obtain ⟨b2, h3, h4⟩ := session_sim hs h1 h
  obtain ⟨rfl, rfl⟩ := h2.unique h3
  refine ⟨rfl, ?_, h4.ierr, h4.oerr⟩
  obtain ⟨u, i, r, e1, e2, er, e3⟩ := h4.ph a'.phasen
  simp only [Ins.pending, h4.phasen]
  rw [e3]

/-- What is not part of the program but part of the type of instances: the parse state of the input record, phases
behind the last one, private data of codecs behind the last one. -/
structure Ghosts (st : Nat → Static π) (F : Nat → Nat → π → π → Prop) (a b : Ins π) : Prop where
  index : (b.ph 0).index = (a.ph 0).index
  state : (b.ph 0).st = (a.ph 0).st
  status : (b.ph 0).status = (a.ph 0).status
  curr : (b.ph 0).curr = (a.ph 0).curr
  priv0 : ∀ j, F 0 j ((a.ph 0).priv j) ((b.ph 0).priv j)
  priv : ∀ k j, (st k).codecn < j → F k j ((a.ph k).priv j) ((b.ph k).priv j)
  behind : ∀ k, a.phasen < k → PSim (F k) (a.ph k) (b.ph k)

theorem init_sim {st : Nat → Static π} {ip : Nat → Nat → π → π} {a b : Ins π} (hn : b.phasen = a.phasen)
    (hg : Ghosts st F a b) (hp : ∀ k j t t', 1 ≤ k → k ≤ a.phasen → j ≤ (st k).codecn → F k j (ip k j t) (ip k j t'))
    (k : Nat) : PSim (F k) ((a.init st ip).ph k) ((b.init st ip).ph k) := by
  simp only [Ins.init, hn]
  by_cases hk : k ≤ a.phasen
  · simp only [hk, if_true]
    by_cases h0 : k = 0
    · subst h0
      simp only [if_true]
      refine ⟨(b.ph 0).bak, (b.ph 0).i, (b.ph 0).priv, by simp, by simp, hg.priv0, ?_⟩
      simp only [hg.index, hg.state, hg.status, hg.curr]
    · simp only [h0, if_false]
      refine ⟨(b.ph k).bak, (b.ph k).i, fun j => if j ≤ (st k).codecn then ip k j ((b.ph k).priv j) else (b.ph k).priv j,
        ?_, ?_, ?_, ?_⟩
      · simp [Ph.reset]
      · simp [Ph.reset]
      · intro j
        simp only [Ph.reset]
        by_cases hj : j ≤ (st k).codecn
        · simp only [hj, if_true]
          exact hp k j _ _ (by omega) hk hj
        · simp only [hj, if_false]
          exact hg.priv k j (by omega)
      · simp [Ph.reset]
  · simp only [hk, if_false]
    exact hg.behind k (by omega)

/-- Reset the error counters. -/
def Ins.zero (a : Ins π) : Ins π := { a with ierr := 0, oerr := 0 }

theorem ISim.ofZero (hr : ∀ k j t, F k j t t) (a : Ins π) : ISim F a.ierr a.oerr a.zero a :=
  ⟨fun k => ⟨(a.ph k).bak, (a.ph k).i, (a.ph k).priv, fun _ => rfl, fun _ => rfl, fun j => hr k j _, rfl⟩,
    rfl, rfl, rfl, by simp [Ins.zero], by simp [Ins.zero]⟩

/-! ### Codecs -/

theorem clean_same {R : Nat → π → π → Prop} {j : Nat} {c : Codec π} (h1 : c.conv = id) (h2 : c.flush = none) : Clean R j c where
  conv := by intro x y l m _ h; rw [h1]; exact h
  flush := by intro f h; rw [h2] at h; simp at h

/-- Private data related by `R` cannot be told apart by the decoder. -/
def Machine.Blind {σ : Type} (m : Machine σ) (R : σ → σ → Prop) : Prop :=
  ∀ t t' b, R t t' → (m.step t b).2 = (m.step t' b).2 ∧ R (m.step t b).1 (m.step t' b).1

/-- Two results of the loop with related private data. -/
def Fed.Like {σ : Type} (R : σ → σ → Prop) : Fed σ → Fed σ → Prop
  | .more t o, .more t' o' => o = o' ∧ R t t'
  | .ret k t o s, .ret k' t' o' s' => k = k' ∧ o = o' ∧ s = s' ∧ R t t'
  | _, _ => False

theorem Machine.Blind.feed {σ : Type} {m : Machine σ} {R : σ → σ → Prop} (h : m.Blind R) (ds : List Nat) {t t' : σ}
    (ht : R t t') : Fed.Like R (m.feed t ds) (m.feed t' ds) := by
  induction ds generalizing t t' with
  | nil => exact ⟨rfl, ht⟩
  | cons d ds ih =>
    obtain ⟨h1, h2⟩ := h t t' d ht
    simp only [Machine.feed]
    generalize m.step t d = z at h1 h2
    generalize m.step t' d = z' at h1 h2
    obtain ⟨a, o, s⟩ := z
    obtain ⟨a', o', s'⟩ := z'
    simp only [Prod.mk.injEq] at h1
    obtain ⟨rfl, rfl⟩ := h1
    cases s with
    | some s => exact ⟨rfl, rfl, rfl, h2⟩
    | none =>
      have := ih h2
      simp only [] at this ⊢
      cases h3 : m.feed a ds <;> cases h4 : m.feed a' ds <;> rw [h3, h4] at this <;> simp only [Fed.Like] at this ⊢
      · exact ⟨by rw [this.1], this.2⟩
      · exact ⟨by rw [this.1], by rw [this.2.1], this.2.2.1, this.2.2.2⟩

theorem Machine.Blind.on {σ : Type} {m : Machine σ} {R : σ → σ → Prop} (h : m.Blind R) (e : Lens π σ) :
    (m.on e).Blind (fun x x' => R (e.get x) (e.get x')) := by
  intro t t' b ht
  obtain ⟨h1, h2⟩ := h _ _ b ht
  simp only [Machine.on, e.get_put]
  exact ⟨h1, h2⟩

theorem clean_machine {R : Nat → π → π → Prop} {j : Nat} {m : Machine π} (h : m.Blind (R j)) {fl : Option (Loc π → Loc π)}
    {t : Nat → Nat → Nat} {s : Nat → Status} {da : Nat → List Datum}
    (hf : ∀ f, fl = some f → ∀ x y l m, l.ph.index = j → LSim R x y l m → LSim R x y (f l) (f m)) :
    Clean R j ⟨t, s, da, m.conv, fl⟩ where
  flush := hf
  conv := by
    intro x y l n hj hl
    subst hj
    obtain ⟨b, p, hb, hp, rfl⟩ := hl
    simp only [Machine.conv]
    have := h.feed ((l.prev.get l.ph.curr).drop l.ph.i) (hp l.ph.index)
    have hput : ∀ u u', R l.ph.index u u' → ∀ k, R k (if k = l.ph.index then u else l.ph.priv k)
        (if k = l.ph.index then u' else p k) := by
      intro u u' hu k
      by_cases hk : k = l.ph.index
      · simp only [hk, if_true]; exact hu
      · simp only [hk, if_false]; exact hp k
    cases h3 : m.feed (l.ph.priv l.ph.index) ((l.prev.get l.ph.curr).drop l.ph.i) <;>
      cases h4 : m.feed (p l.ph.index) ((l.prev.get l.ph.curr).drop l.ph.i) <;>
      rw [h3, h4] at this <;> simp only [Fed.Like] at this ⊢
    · obtain ⟨rfl, h5⟩ := this
      exact ⟨b, _, hb, hput _ _ h5, rfl⟩
    · obtain ⟨rfl, rfl, rfl, h5⟩ := this
      exact ⟨b, _, hb, hput _ _ h5, rfl⟩

/-- Private data related by `R` cannot be told apart by the codec. -/
structure _root_.Verif.Spec.Handler.Blind {σ : Type} (h : Handler σ) (R : σ → σ → Prop) : Prop where
  act : ∀ t t' d, R t t' → (h.act t d = none ∧ h.act t' d = none) ∨
    ∃ u u' r, h.act t d = some (u, r) ∧ h.act t' d = some (u', r) ∧ R u u'
  flush : ∀ t t', R t t' → (h.flush t).2 = (h.flush t').2 ∧ R (h.flush t).1 (h.flush t').1

theorem _root_.Verif.Spec.Handler.Blind.on {σ : Type} {h : Handler σ} {R : σ → σ → Prop} (hb : h.Blind R) (e : Lens π σ) :
    (h.on e).Blind (fun x x' => R (e.get x) (e.get x')) where
  act := by
    intro t t' d ht
    rcases hb.act _ _ d ht with ⟨h1, h2⟩ | ⟨u, u', r, h1, h2, h3⟩
    · exact .inl ⟨by simp [Handler.on, h1], by simp [Handler.on, h2]⟩
    · exact .inr ⟨e.put u t, e.put u' t', r, by simp [Handler.on, h1], by simp [Handler.on, h2], by
        rw [e.get_put, e.get_put]; exact h3⟩
  flush := by
    intro t t' ht
    obtain ⟨h1, h2⟩ := hb.flush _ _ ht
    exact ⟨h1, by simp only [Handler.on, e.get_put]; exact h2⟩

theorem clean_conv {R : Nat → π → π → Prop} {j : Nat} {h : Handler π} (hb : h.Blind (R j)) {x y : Nat} {l m : Loc π}
    (hj : l.ph.index = j) (hl : LSim R x y l m) : LSim R x y (h.conv l) (h.conv m) := by
  subst hj
  obtain ⟨b, p, hb', hp, rfl⟩ := hl
  simp only [Handler.conv]
  rcases hb.act (l.ph.priv l.ph.index) (p l.ph.index) (l.prev.get l.ph.curr) (hp l.ph.index)
    with ⟨h1, h2⟩ | ⟨u, u', ⟨o, w⟩, h1, h2, h3⟩
  · simp only [h1, h2]
    exact ⟨b, p, hb', hp, rfl⟩
  · simp only [h1, h2]
    refine ⟨b, _, hb', ?_, rfl⟩
    intro k
    simp only [setPriv]
    by_cases hk : k = l.ph.index
    · simp only [hk, if_true]; exact h3
    · simp only [hk, if_false]; exact hp k

theorem clean_cbflush {R : Nat → π → π → Prop} {j : Nat} {h : Handler π} (hb : h.Blind (R j)) {x y : Nat} {l m : Loc π}
    (hj : l.ph.index = j) (hl : LSim R x y l m) : LSim R x y (h.cbflush l) (h.cbflush m) := by
  subst hj
  obtain ⟨b, p, hb', hp, rfl⟩ := hl
  simp only [Handler.cbflush]
  obtain ⟨h1, h2⟩ := hb.flush (l.ph.priv l.ph.index) (p l.ph.index) (hp l.ph.index)
  rw [h1]
  refine ⟨b, _, hb', ?_, rfl⟩
  intro k
  simp only [setPriv]
  by_cases hk : k = l.ph.index
  · simp only [hk, if_true]; exact h2
  · simp only [hk, if_false]; exact hp k

theorem clean_handler {R : Nat → π → π → Prop} {j : Nat} {h : Handler π} (hb : h.Blind (R j))
    {t : Nat → Nat → Nat} {s : Nat → Status} {da : Nat → List Datum} {fl : Option (Loc π → Loc π)}
    (hf : fl = none ∨ fl = some h.cbflush) : Clean R j ⟨t, s, da, h.conv, fl⟩ where
  conv := fun _ _ _ _ hj hl => clean_conv hb hj hl
  flush := by
    intro f h1 x y l m hj hl
    rcases hf with hf | hf
    · rw [hf] at h1; simp at h1
    · rw [hf] at h1
      obtain rfl := Option.some.inj h1
      exact clean_cbflush hb hj hl

theorem clean_encode {R : Nat → π → π → Prop} {j : Nat} (f : Datum → Option (List Datum))
    {t : Nat → Nat → Nat} {s : Nat → Status} {da : Nat → List Datum} :
    Clean R j ⟨t, s, da, encodeConv f, none⟩ where
  conv := by
    rintro x y l m hj ⟨b, p, hb, hp, rfl⟩
    simp only [encodeConv]
    cases f (l.prev.get l.ph.curr) with
    | none => exact ⟨b, p, hb, hp, rfl⟩
    | some o => exact ⟨b, p, hb, hp, rfl⟩
  flush := by intro f h; simp at h

/-! ### What an instance never changes -/

/-- Callbacks touch no private data but their own. -/
structure Tidy (c : Codec π) : Prop where
  conv : ∀ l, (c.conv l).ph.index = l.ph.index ∧ ∀ j, j ≠ l.ph.index → (c.conv l).ph.priv j = l.ph.priv j
  flush : ∀ f, c.flush = some f → ∀ l, (f l).ph.index = l.ph.index ∧ ∀ j, j ≠ l.ph.index → (f l).ph.priv j = l.ph.priv j

/-- The selected codec exists, and private data of other codecs are kept. -/
def Own (n : Nat) (p : Nat → π) (l : Loc π) : Prop := l.ph.index ≤ n ∧ ∀ j, n < j → l.ph.priv j = p j

theorem scan_kept (s : Static π) (cs : List Nat) (p : Ph π) : (p.scan s cs).2.index = p.index ∧ (p.scan s cs).2.priv = p.priv := by
  induction cs generalizing p with
  | nil => exact ⟨rfl, rfl⟩
  | cons c cs ih =>
    simp only [Ph.scan]
    have e1 : (p.advance s c).index = p.index := rfl
    have e2 : (p.advance s c).priv = p.priv := rfl
    generalize p.advance s c = p' at e1 e2 ⊢
    obtain ⟨x1, x2, x3, x4, x5, x6, x7, x8, x9, x10, x11, x12, x13, x14⟩ := p'
    cases x4 <;> simp only [] <;> first
      | exact ⟨e1, e2⟩
      | exact ⟨(ih _).1.trans e1, (ih _).2.trans e2⟩

theorem emitMatch_kept {s : Static π} (hs : ∀ j, Tidy (s.codecs j)) (f : Bool) {l : Loc π} {p : Nat → π}
    (h : Own s.codecn p l) : Own s.codecn p (emitMatch s l f) := by
  refine ⟨Nat.zero_le _, ?_⟩
  intro j hj
  unfold emitMatch
  by_cases hm : l.ph.matchData ≠ []
  · rw [if_pos hm]
    exact h.2 j hj
  · rw [if_neg hm]
    cases hf : (s.codec l.ph).flush with
    | none => exact h.2 j hj
    | some g =>
      have h1 := h.1
      simp only [Ph.reset]
      rw [((hs l.ph.index).flush g hf l).2 j (by omega)]
      exact h.2 j hj

theorem local_kept {s : Static π} (hs : ∀ j, Tidy (s.codecs j)) (pc : PC) {l : Loc π} {p : Nat → π}
    (h : Own s.codecn p l) : Own s.codecn p (localStep s pc l).1 := by
  have hconv : Own s.codecn p ((s.codec l.ph).conv l) := by
    have hc := (hs l.ph.index).conv l
    exact ⟨by rw [show ((s.codec l.ph).conv l).ph.index = l.ph.index from hc.1]; exact h.1,
      fun j hj => by have := h.1; rw [show ((s.codec l.ph).conv l).ph.priv j = l.ph.priv j from hc.2 j (by omega)]; exact h.2 j hj⟩
  cases pc <;> simp only [localStep] <;> try exact h
  case fromOuter =>
    unfold fromOuter
    by_cases hn : l.prev.hasNext l.ph.curr = true
    · simp only [hn, if_true]; exact h
    · simp only [hn]; exact h
  case fromInner =>
    unfold fromInner
    by_cases h1 : l.ph.curr = 0
    · simp only [h1, if_true]
      by_cases h2 : l.ph.i < l.prevHeadLen
      · simp only [h2, if_true]; exact h
      · simp only [h2, if_false]; exact h
    · simp only [h1, if_false]
      by_cases h2 : l.ph.i < (l.prev.get l.ph.curr).length
      · simp only [h2, dif_pos]; exact h
      · simp only [h2]; exact h
  case fromSw =>
    unfold fromSw
    split
    · exact h
    · exact ⟨Nat.zero_le _, h.2⟩
    · exact h
    · exact hconv
    · exact hconv
    · exact ⟨Nat.zero_le _, h.2⟩
    · exact h
    · exact h
    · exact h
    · exact h
  case fromDead =>
    unfold fromDead
    by_cases hm : l.ph.fMatch = true
    · simp only [hm, if_true]
      exact emitMatch_kept hs true ⟨h.1, h.2⟩
    · simp only [hm]
      by_cases hi : l.ph.index < s.codecn
      · simp only [hi, if_true]; exact ⟨hi, h.2⟩
      · simp only [hi]; exact ⟨Nat.zero_le _, h.2⟩
  case interOuter =>
    unfold itOuter
    by_cases hn : l.prev.hasNext l.ph.curr = true
    · simp only [hn, if_true]
      obtain ⟨e1, e2⟩ := scan_kept s (l.prev.get (l.ph.curr + 1)) { l.ph with curr := l.ph.curr + 1, status := .nomatch, i := 0 }
      exact ⟨by rw [e1]; exact h.1, fun j hj => by rw [e2]; exact h.2 j hj⟩
    · simp only [hn]; exact h
  case toOuter =>
    unfold itOuter
    by_cases hn : l.prev.hasNext l.ph.curr = true
    · simp only [hn, if_true]
      obtain ⟨e1, e2⟩ := scan_kept s (l.prev.get (l.ph.curr + 1)) { l.ph with curr := l.ph.curr + 1, status := .nomatch, i := 0 }
      exact ⟨by rw [e1]; exact h.1, fun j hj => by rw [e2]; exact h.2 j hj⟩
    · simp only [hn]; exact h
  case interSw =>
    unfold interSw
    split
    · exact h
    · exact h
    · exact ⟨Nat.zero_le _, h.2⟩
    · unfold itSep itSubmatch
      by_cases hn : l.prev.hasNext l.ph.curr = true
      · simp only [hn, if_true]; exact h
      · simp only [hn]; exact h
    · exact hconv
    · exact hconv
    · exact ⟨Nat.zero_le _, h.2⟩
    · exact h
    · exact h
    · exact h
  case toSw =>
    unfold toSw
    split
    · exact h
    · exact h
    · exact ⟨Nat.zero_le _, h.2⟩
    · unfold itSep itSubmatch
      by_cases hn : l.prev.hasNext l.ph.curr = true
      · simp only [hn, if_true]; exact h
      · simp only [hn]; exact h
    · exact hconv
    · exact hconv
    · exact ⟨Nat.zero_le _, h.2⟩
    · exact h
    · exact h
    · exact h
  case interDead =>
    unfold interDead
    by_cases hm : l.ph.fMatch = true
    · simp only [hm, if_true]
      exact emitMatch_kept hs false ⟨h.1, h.2⟩
    · simp only [hm]
      by_cases hi : l.ph.index < s.codecn
      · simp only [hi, if_true]; exact ⟨hi, h.2⟩
      · simp only [hi]
        cases hq : l.prev.items with
        | nil => exact ⟨h.1, h.2⟩
        | cons d ds => exact ⟨Nat.zero_le _, h.2⟩
  case toDead =>
    unfold toDead
    by_cases hm : l.ph.fMatch = true
    · simp only [hm, if_true]
      exact emitMatch_kept hs false ⟨h.1, h.2⟩
    · simp only [hm]
      by_cases hi : l.ph.index < s.codecn
      · simp only [hi, if_true]; exact ⟨hi, h.2⟩
      · simp only [hi]; exact ⟨Nat.zero_le _, h.2⟩

/-- Local program points are reached only inside a phase. -/
theorem step_inside (st : Nat → Static π) (c : Ins π × PC) (h : c.2.isLocal = true → 1 ≤ c.1.pidx ∧ c.1.pidx ≤ c.1.phasen) :
    (step st c).1.phasen = c.1.phasen ∧
    ((step st c).2.isLocal = true → 1 ≤ (step st c).1.pidx ∧ (step st c).1.pidx ≤ (step st c).1.phasen) := by
  obtain ⟨ins, pc⟩ := c
  simp only [] at h
  by_cases hl : pc.isLocal = true
  · have h1 := h hl
    rw [step_local st ins pc hl]
    cases (localStep (st ins.pidx) pc ins.loc).2 with
    | goto pc' => exact ⟨rfl, fun _ => h1⟩
    | nextBegin => exact ⟨rfl, fun h => by simp [after, PC.isLocal] at h⟩
  · cases pc <;> simp only [PC.isLocal, not_true] at hl
    case begin =>
      simp only [step]
      by_cases h1 : 0 < ins.pidx ∧ ins.pidx ≤ ins.phasen
      · rw [if_pos h1]; exact ⟨rfl, fun _ => ⟨h1.1, h1.2⟩⟩
      · rw [if_neg h1]; exact ⟨rfl, fun h => by simp [PC.isLocal] at h⟩
    case leave => exact ⟨rfl, fun h => by simp [step, PC.isLocal] at h⟩
    case checkBack =>
      simp only [step]
      cases ins.findBack ins.phasen with
      | none => exact ⟨rfl, fun h => by simp [PC.isLocal] at h⟩
      | some k => exact ⟨rfl, fun h => by simp [PC.isLocal] at h⟩
    case flushScan =>
      simp only [step]
      cases hf : ins.flush with
      | false =>
        simp only [Bool.false_eq_true, if_false]
        exact ⟨trivial, fun h => by simp [PC.isLocal] at h⟩
      | true =>
        simp only [if_true]
        cases hq : ins.findPending 1 ins.phasen with
        | none => exact ⟨rfl, fun h => by simp [PC.isLocal] at h⟩
        | some k =>
          have := findPending_some hq
          exact ⟨rfl, fun _ => ⟨this.1, by have := this.2.1; simp only []; omega⟩⟩
    case done => exact ⟨rfl, fun h => by simp [step, PC.isLocal] at h⟩
    case ub => exact ⟨rfl, fun h => by simp [step, PC.isLocal] at h⟩

end Verif.Engine
