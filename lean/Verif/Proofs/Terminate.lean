import Verif.Proofs.EngineLift
import Verif.Spec.Progress
/-
Termination of `bsdconv()`: a measure that every step of the engine decreases, for every input.

Each phase has a measure of what it still has to do with the data waiting for it; the phases are ordered lexicographically
from the first to the last; the last component is the program point.
-/
namespace Verif.Engine
open Verif.Spec

variable {π : Type}

theorem visited_zero (c : Codec π) : Visited c 0 := ⟨[], rfl⟩

theorem visited_next {c : Codec π} {o a : Nat} (h : Visited c o) (hn : c.next o a ≠ 0) : Visited c (c.next o a) := by
  obtain ⟨u, h⟩ := h
  exact ⟨u ++ [a], by rw [walk_snoc h, if_neg hn]⟩

/-- A phase of one codec, not FROM. -/
def Static.Lone (s : Static π) : Prop := s.type ≠ .from_ ∧ s.codecn = 0

/-- What is asked of the codecs of a phase: their states have no other status than the table compiler writes; a callback appends
data, changes its private data, the status and (FROM) moves on inside the datum; `cbflush` appends data and changes its
private data.  Only the codec of an INTER or TO phase that has no other codec may hold data without having an
answer for it (SUBMATCH without data). -/
structure Progressive (s : Static π) : Prop where
  kinds : ∀ j o, j ≤ s.codecn → Visited (s.codecs j) o →
    (s.codecs j).status o ∈ [Status.cont, .deadend, .match_, .submatch, .subroutine, .submatchSubroutine]
  data : ∀ j o, j ≤ s.codecn → Visited (s.codecs j) o → (s.codecs j).status o = .submatch → (s.codecs j).data o ≠ [] ∨ s.Lone
  conv : ∀ l : Loc π, l.ph.index ≤ s.codecn → Visited (s.codec l.ph) l.ph.st → ((s.codec l.ph).status l.ph.st).calls →
    1 ≤ l.ph.curr → l.ph.curr ≤ l.prev.items.length → (s.type = .from_ → l.ph.i < (l.prev.get l.ph.curr).length) →
    ∃ ds priv status i, (s.codec l.ph).conv l = { l with ph := { l.ph with q := l.ph.q.pushAll ds, priv := priv, status := status, i := i } } ∧
      (status ∈ [Status.cont, .deadend, .match_, .nextphase] ∨ (status = .submatch ∧ s.Lone)) ∧
      (s.type = .from_ → l.ph.i ≤ i ∧ (i < (l.prev.get l.ph.curr).length ∨ (status = .cont ∧ i = (l.prev.get l.ph.curr).length)))
  flush : ∀ f, s.Lone → (s.codecs 0).flush = some f → ∀ l : Loc π, ∃ ds priv status, f l = { l with ph := { l.ph with q := l.ph.q.pushAll ds, priv := priv, status := status } }

/-- What a FROM phase has taken: datum and offset. -/
def Loc.pos (l : Loc π) : Nat × Nat := if l.ph.fMatch then (l.ph.bak - 1, l.ph.consumed) else (0, l.ph.consumed)

/-- What a phase still has to do. -/
def Loc.todo (s : Static π) (l : Loc π) : Nat × Nat × Nat × Nat × Nat :=
  match s.type with
  | .from_ => (l.prev.items.length - l.pos.1,
      2 * ((l.prev.items.getD l.pos.1 []).length - l.pos.2) + (if l.ph.fMatch then 1 else 0),
      s.codecn - l.ph.index, l.prev.items.length - l.ph.curr, (l.prev.get l.ph.curr).length + 1 - l.ph.i)
  | _ => (l.prev.items.length + (if l.prev.items.getLast?.getD [] = [] then 0 else 2), 0,
      s.codecn - l.ph.index, l.prev.items.length - l.ph.curr, 0)

/-- Lexicographic order. -/
def Lt5 (a b : Nat × Nat × Nat × Nat × Nat) : Prop :=
  a.1 < b.1 ∨ a.1 = b.1 ∧ (a.2.1 < b.2.1 ∨ a.2.1 = b.2.1 ∧ (a.2.2.1 < b.2.2.1 ∨ a.2.2.1 = b.2.2.1 ∧
    (a.2.2.2.1 < b.2.2.2.1 ∨ a.2.2.2.1 = b.2.2.2.1 ∧ a.2.2.2.2 < b.2.2.2.2)))

theorem lt5_wf : WellFounded Lt5 := by
  have w := (Nat.lt_wfRel.wf)
  have w2 := (Prod.lex ⟨_, w⟩ ⟨_, (Prod.lex ⟨_, w⟩ ⟨_, (Prod.lex ⟨_, w⟩ ⟨_, (Prod.lex ⟨_, w⟩ ⟨_, w⟩).wf⟩).wf⟩).wf⟩).wf
  refine Subrelation.wf ?_ w2
  rintro ⟨a1, a2, a3, a4, a5⟩ ⟨b1, b2, b3, b4, b5⟩ h
  unfold Lt5 at h
  simp only at h
  rcases h with h | ⟨rfl, h | ⟨rfl, h | ⟨rfl, h | ⟨rfl, h⟩⟩⟩⟩
  · exact Prod.Lex.left _ _ h
  · exact Prod.Lex.right _ (Prod.Lex.left _ _ h)
  · exact Prod.Lex.right _ (Prod.Lex.right _ (Prod.Lex.left _ _ h))
  · exact Prod.Lex.right _ (Prod.Lex.right _ (Prod.Lex.right _ (Prod.Lex.left _ _ h)))
  · exact Prod.Lex.right _ (Prod.Lex.right _ (Prod.Lex.right _ (Prod.Lex.right _ h)))

/-- What holds of a phase at all times. -/
def Loc.Base (s : Static π) (l : Loc π) : Prop :=
  l.ph.curr ≤ l.prev.items.length ∧
  match s.type with
  | .from_ =>
    (l.ph.fMatch = true → l.ph.matchData ≠ [] ∧ 1 ≤ l.ph.bak ∧ l.ph.bak ≤ l.ph.curr) ∧
    (1 ≤ l.ph.curr → l.pos.1 < l.ph.curr - 1 ∨ (l.pos.1 = l.ph.curr - 1 ∧ l.pos.2 ≤ l.ph.i)) ∧
    (l.ph.fPending = true → 1 ≤ l.ph.curr ∧ (l.ph.fMatch = true ∨ 2 ≤ l.ph.curr ∨ l.ph.consumed < (l.prev.items.getD 0 []).length))
  | _ =>
    (l.ph.fMatch = true → ((l.ph.matchData ≠ [] ∧ 2 ≤ l.ph.bak ∧ l.ph.bak ≤ l.prev.items.length) ∨ (l.ph.matchData = [] ∧ s.Lone)) ∧ 1 ≤ l.ph.curr) ∧
    (l.ph.fPending = true → 1 ≤ l.ph.curr)

/-- The phase is at a state of its automaton. -/
def Loc.Sited (s : Static π) (l : Loc π) : Prop :=
  l.ph.index ≤ s.codecn ∧ Visited (s.codec l.ph) l.ph.st ∧ (l.ph.fLoop = true → Visited (s.codec l.ph) l.ph.offset)

/-- Behind the scan of a datum, INTER and TO. -/
def SwAt (s : Static π) (l : Loc π) : Prop :=
  1 ≤ l.ph.curr ∧ (l.ph.status = .nomatch ∨ l.prev.get l.ph.curr ≠ []) ∧
    l.ph.status ∈ [Status.cont, .deadend, .match_, .submatch, .subroutine, .submatchSubroutine, .nextphase, .nomatch] ∧
    (l.ph.status = .submatch → (s.codec l.ph).data l.ph.st ≠ [] ∨ s.Lone) ∧
    (l.ph.status.calls → ((s.codec l.ph).status l.ph.st).calls)

/-- What holds at a program point of the phase. -/
def Loc.At (s : Static π) (l : Loc π) : PC → Prop
  | .fromOuter => s.type = .from_
  | .fromInner => s.type = .from_
  | .fromSw => s.type = .from_ ∧ 1 ≤ l.ph.curr ∧ l.ph.i ≤ (l.prev.get l.ph.curr).length ∧
      (l.ph.status ≠ .cont → l.ph.i < (l.prev.get l.ph.curr).length) ∧ (l.pos.1 = l.ph.curr - 1 → l.pos.2 < (l.prev.get l.ph.curr).length) ∧
      l.ph.status ∈ [Status.cont, .deadend, .match_, .submatch, .subroutine, .submatchSubroutine, .nextphase] ∧
      (l.ph.status = .submatch → (s.codec l.ph).data l.ph.st ≠ []) ∧
      (l.ph.status.calls → ((s.codec l.ph).status l.ph.st).calls ∧ Visited (s.codec l.ph) l.ph.offset)
  | .fromDead => s.type = .from_ ∧ 1 ≤ l.ph.curr ∧ (l.ph.fMatch = true ∨ 2 ≤ l.ph.curr ∨ l.ph.consumed < (l.prev.items.getD 0 []).length)
  | .interOuter => s.type = .inter
  | .interSw => s.type = .inter ∧ SwAt s l
  | .toSw => s.type = .to_ ∧ SwAt s l
  | .toOuter => s.type = .to_
  | .interDead => s.type = .inter ∧ 1 ≤ l.ph.curr
  | .toDead => s.type = .to_ ∧ 1 ≤ l.ph.curr
  | .begin => True
  | .leave => True
  | _ => False

/-- Program points inside a phase and behind it, by how near they are to the next progress. -/
def Loc.rank (l : Loc π) : PC → Nat
  | .fromInner => 30
  | .fromSw | .interSw | .toSw => if l.ph.status = .subroutine ∨ l.ph.status = .submatchSubroutine then 21 else 20
  | .fromOuter | .interOuter | .toOuter => if l.prev.hasNext l.ph.curr then 2 else 7
  | .begin => 8
  | .leave => 6
  | .checkBack => 5
  | .flushScan => 1
  | _ => 0

/-- The same for where a step goes. -/
def Loc.goal (s : Static π) (l : Loc π) : Ctl → Prop
  | .goto pc => Loc.At s l pc
  | .nextBegin => True

def Loc.ctlRank (l : Loc π) : Ctl → Nat
  | .goto pc => l.rank pc
  | .nextBegin => 8

/-- Is a match remembered? -/
def Loc.kept (l : Loc π) : Nat := if l.ph.fMatch then 1 else 0

/-- A step of a phase makes progress and keeps what always holds. -/
structure Loc.Steps (s : Static π) (l : Loc π) (r : Nat) (l' : Loc π) (c : Ctl) : Prop where
  base : l'.Base s
  goal : l'.goal s c
  less : Lt5 (l'.todo s) (l.todo s) ∨
    (l'.todo s = l.todo s ∧ l'.ctlRank c < r ∧ ((l'.ph.q = l.ph.q ∧ l'.kept = l.kept) ∨ l'.ctlRank c - 19 < r - 19)) ∨
    (l'.todo s = l.todo s ∧ l'.ctlRank c ≤ 19 ∧ r ≤ 19 ∧ l'.kept < l.kept)
  prev : l'.prev.Ok
  queue : ∃ ds, l'.ph.q = l.ph.q.pushAll ds
  head : l'.prevHeadLen = l.prevHeadLen
  taken : s.type ≠ .from_ → l'.ph.consumed = l.ph.consumed

/-! ### FROM -/

theorem getD_drop (l : List Datum) (n k : Nat) : (l.drop n).getD k [] = l.getD (n + k) [] := by
  simp [List.getD, List.getElem?_drop]

theorem get_eq (q : Queue) (k : Nat) : q.get k = q.items.getD (k - 1) [] := rfl

theorem advance_visited {s : Static π} {l : Loc π} (h : l.Sited s) (c : Nat) : Visited (s.codec l.ph) (l.ph.advance s c).st := by
  unfold Ph.advance
  simp only
  split
  · rename_i hn; exact visited_next h.2.1 hn
  · split
    · rename_i hl; exact h.2.2 hl
    · exact visited_zero _

section From
variable {s : Static π} (hs : Progressive s) (ht : s.type = .from_)
include hs ht

/-- The measure in a FROM phase. -/
theorem todo_from (l : Loc π) : l.todo s = (l.prev.items.length - l.pos.1,
      2 * ((l.prev.items.getD l.pos.1 []).length - l.pos.2) + (if l.ph.fMatch then 1 else 0),
      s.codecn - l.ph.index, l.prev.items.length - l.ph.curr, (l.prev.get l.ph.curr).length + 1 - l.ph.i) := by
  unfold Loc.todo; rw [ht]

theorem base_from (l : Loc π) : l.Base s ↔ l.ph.curr ≤ l.prev.items.length ∧
    (l.ph.fMatch = true → l.ph.matchData ≠ [] ∧ 1 ≤ l.ph.bak ∧ l.ph.bak ≤ l.ph.curr) ∧
    (1 ≤ l.ph.curr → l.pos.1 < l.ph.curr - 1 ∨ (l.pos.1 = l.ph.curr - 1 ∧ l.pos.2 ≤ l.ph.i)) ∧
    (l.ph.fPending = true → 1 ≤ l.ph.curr ∧ (l.ph.fMatch = true ∨ 2 ≤ l.ph.curr ∨ l.ph.consumed < (l.prev.items.getD 0 []).length)) := by
  unfold Loc.Base; rw [ht]

theorem steps_fromOuter {l : Loc π} (hb : l.Base s) (hq : l.prev.Ok) :
    l.Steps s (l.rank .fromOuter) (fromOuter l).1 (fromOuter l).2 := by
  rw [base_from hs ht] at hb
  obtain ⟨b1, b2, b3, b4⟩ := hb
  unfold fromOuter
  split
  · rename_i h
    simp only [Queue.hasNext, decide_eq_true_eq] at h
    refine ⟨?_, ht, .inl ?_, hq, ⟨[], rfl⟩, rfl, fun k => absurd ht k⟩
    · rw [base_from hs ht]
      refine ⟨by simp only; omega, ?_, ?_, ?_⟩
      · intro hm; obtain ⟨h1, h2, h3⟩ := b2 hm; exact ⟨h1, h2, by simp only; omega⟩
      · intro _
        simp only [Loc.pos]
        cases hm : l.ph.fMatch with
        | true =>
          obtain ⟨h1, h2, h3⟩ := b2 hm
          simp only [if_true]
          left; omega
        | false =>
          simp only [Bool.false_eq_true, if_false]
          by_cases hc : l.ph.curr = 0
          · right; simp [hc]
          · left; omega
      · intro hp
        obtain ⟨h1, h2⟩ := b4 hp
        refine ⟨by simp only; omega, ?_⟩
        rcases h2 with h2 | h2 | h2
        · exact .inl h2
        · exact .inr (.inl (by simp only; omega))
        · exact .inr (.inl (by simp only; omega))
    · rw [todo_from hs ht, todo_from hs ht]
      unfold Lt5
      simp only [Loc.pos]
      exact .inr ⟨trivial, .inr ⟨trivial, .inr ⟨trivial, .inl (by omega)⟩⟩⟩
  · rename_i h
    refine ⟨(base_from hs ht l).2 ⟨b1, b2, b3, b4⟩, trivial, .inr (.inl ⟨rfl, ?_, .inl ⟨rfl, rfl⟩⟩), hq, ⟨[], rfl⟩, rfl, fun k => absurd ht k⟩
    simp only [Loc.ctlRank, Loc.rank]
    rw [if_neg (by simpa using h)]
    omega

theorem kinds_mem (j o : Nat) (hj : j ≤ s.codecn) (ho : Visited (s.codecs j) o) : (s.codecs j).status o ∈ [Status.cont, .deadend, .match_, .submatch, .subroutine, .submatchSubroutine, .nextphase] := by
  have := hs.kinds j o hj ho
  simp only [List.mem_cons, List.not_mem_nil, or_false] at this ⊢
  rcases this with h | h | h | h | h | h <;> simp [h]

theorem steps_fromInner {l : Loc π} (hb : l.Base s) (hsi : l.Sited s) (hq : l.prev.Ok) (hh : l.prevHeadLen = 0) :
    l.Steps s (l.rank .fromInner) (fromInner s l).1 (fromInner s l).2 := by
  have hb' := hb
  rw [base_from hs ht] at hb
  obtain ⟨b1, b2, b3, b4⟩ := hb
  have out : l.Steps s (l.rank .fromInner) l (.goto .fromOuter) := by
    refine ⟨hb', ht, .inr (.inl ⟨rfl, ?_, .inl ⟨rfl, rfl⟩⟩), hq, ⟨[], rfl⟩, rfl, fun k => absurd ht k⟩
    simp only [Loc.ctlRank, Loc.rank]
    split <;> omega
  unfold fromInner
  split
  · rw [if_neg (by omega)]; exact out
  · rename_i hc
    split
    · rename_i hi
      refine ⟨?_, ?_, .inr (.inl ⟨?_, ?_, .inl ⟨rfl, rfl⟩⟩), hq, ⟨[], rfl⟩, rfl, fun k => absurd ht k⟩
      · rw [base_from hs ht]; exact ⟨b1, b2, b3, b4⟩
      · refine ⟨ht, by simp only [Ph.advance]; omega, by simp only [Ph.advance]; omega, fun _ => hi, ?_, ?_, ?_, ?_⟩
        · intro hp
          have hp' : l.pos.1 = l.ph.curr - 1 := hp
          have := b3 (by omega)
          show l.pos.2 < (l.prev.get l.ph.curr).length
          omega
        · exact kinds_mem hs ht _ _ hsi.1 (advance_visited hsi _)
        · intro h; exact (hs.data _ _ hsi.1 (advance_visited hsi _) h).resolve_right (fun k => k.1 ht)
        · intro h; exact ⟨h, advance_visited hsi _⟩
      · rw [todo_from hs ht, todo_from hs ht]; rfl
      · simp only [Loc.ctlRank, Loc.rank]
        split <;> omega
    · exact out

/-- What a FROM phase does when it has decided on the bytes up to `i`. -/
theorem steps_take {l : Loc π} (hb : l.Base s) (hq : l.prev.Ok) (hc : 1 ≤ l.ph.curr) (hi : l.ph.i < (l.prev.get l.ph.curr).length)
    (ds : List Datum) (r : Nat) : l.Steps s r
      { l with
        prev := l.prev.listFree l.ph.curr
        ph := ({ l.ph with
          fMatch := false, fPending := false, fLoop := false, matchData := [], q := l.ph.q.pushAll ds, bak := l.ph.curr,
          curr := 0, consumed := l.ph.i + 1 } : Ph π).reset s } .nextBegin := by
  rw [base_from hs ht] at hb
  obtain ⟨b1, b2, b3, b4⟩ := hb
  obtain ⟨o1, o2⟩ := Queue.listFree_ok hq l.ph.curr
  refine ⟨?_, trivial, .inl ?_, o1, ⟨ds, rfl⟩, rfl, fun k => absurd ht k⟩
  · rw [base_from hs ht]
    refine ⟨by simp [Ph.reset], by simp [Ph.reset], by simp [Ph.reset], by simp [Ph.reset]⟩
  · have h3 := b3 hc
    rw [todo_from hs ht, todo_from hs ht]
    unfold Lt5
    simp only [Loc.pos, Ph.reset, Bool.false_eq_true, if_false, o2, List.length_drop, getD_drop] at h3 ⊢
    rw [get_eq] at hi
    cases hm : l.ph.fMatch with
    | true =>
      obtain ⟨h1, h2, h3'⟩ := b2 hm
      simp only [hm, if_true] at h3 ⊢
      rcases h3 with h3 | ⟨h3, h4⟩
      · left; omega
      · right
        refine ⟨by omega, .inl ?_⟩
        have e : l.prev.items.getD (l.ph.curr - 1) [] = l.prev.items.getD (l.ph.bak - 1) [] := by rw [h3]
        rw [e] at hi
        rw [Nat.add_zero (l.ph.curr - 1), e]
        omega
    | false =>
      simp only [hm, Bool.false_eq_true, if_false] at h3 ⊢
      rcases h3 with h3 | ⟨h3, h4⟩
      · left; omega
      · right
        refine ⟨by omega, .inl ?_⟩
        have e : l.prev.items.getD (l.ph.curr - 1) [] = l.prev.items.getD 0 [] := by rw [h3]
        rw [e] at hi
        rw [Nat.add_zero (l.ph.curr - 1), e]
        omega

theorem steps_fromSw {l : Loc π} (hb : l.Base s) (hsi : l.Sited s) (hq : l.prev.Ok) (ha : l.At s .fromSw) :
    l.Steps s (l.rank .fromSw) (fromSw s l).1 (fromSw s l).2 := by
  have hb' := hb
  obtain ⟨_, a1, a2, a3, a4, a5, a6, a7⟩ := ha
  rw [base_from hs ht] at hb
  obtain ⟨b1, b2, b3, b4⟩ := hb
  have call : (l.ph.status = .subroutine ∨ l.ph.status = .submatchSubroutine) →
      l.Steps s (l.rank .fromSw) { (s.codec l.ph).conv l with ph := { ((s.codec l.ph).conv l).ph with fLoop := true } } (.goto .fromSw) := by
    intro hst
    have hi : l.ph.i < (l.prev.get l.ph.curr).length := a3 (by rcases hst with h | h <;> simp [h])
    obtain ⟨ds, priv, status, i, e, m1, m2⟩ := hs.conv l hsi.1 hsi.2.1 (a7 hst).1 a1 b1 (fun _ => hi)
    obtain ⟨m3, m4⟩ := m2 ht
    replace m1 := m1.resolve_right (fun k => k.2.1 ht)
    rw [e]
    have hpos : (({ l with ph := { l.ph with q := l.ph.q.pushAll ds, priv := priv, status := status, i := i, fLoop := true } } : Loc π)).pos = l.pos := rfl
    refine ⟨?_, ?_, ?_, hq, ⟨ds, rfl⟩, rfl, fun k => absurd ht k⟩
    · rw [base_from hs ht]
      refine ⟨b1, b2, ?_, b4⟩
      intro h
      rw [hpos]
      rcases b3 h with k | ⟨k, k'⟩
      · exact .inl k
      · exact .inr ⟨k, by simp only; omega⟩
    · refine ⟨ht, a1, by simp only; omega, ?_, a4, ?_, ?_, ?_⟩
      · intro h; simp only at h ⊢
        rcases m4 with k | ⟨k, _⟩
        · exact k
        · exact absurd k h
      · simp only [List.mem_cons, List.not_mem_nil, or_false] at m1 ⊢
        rcases m1 with h | h | h | h <;> simp [h]
      · intro h
        simp only at h
        subst h
        simp at m1
      · rintro (h | h) <;> (simp only at h; subst h; simp at m1)
    · rw [todo_from hs ht, todo_from hs ht, hpos]
      simp only
      by_cases hii : i = l.ph.i
      · right; left
        refine ⟨by rw [hii], ?_⟩
        simp only [Loc.ctlRank, Loc.rank]
        rw [if_pos hst, if_neg (by rintro (h | h) <;> (subst h; simp at m1))]
        exact ⟨by omega, .inr (by omega)⟩
      · left
        unfold Lt5
        simp only
        exact .inr ⟨trivial, .inr ⟨trivial, .inr ⟨trivial, .inr ⟨trivial, by omega⟩⟩⟩⟩
  have next : ∀ l' : Loc π, l'.Base s → l'.prev.Ok → l'.ph.q = l.ph.q → l'.prevHeadLen = l.prevHeadLen → Lt5 (l'.todo s) (l.todo s) →
      l.Steps s (l.rank .fromSw) l' (.goto .fromInner) := by
    intro l' h1 h2 h3 h4 h5
    exact ⟨h1, ht, .inl h5, h2, ⟨[], h3⟩, h4, fun k => absurd ht k⟩
  unfold fromSw
  split
  · -- deadend
    rename_i hst
    refine ⟨hb', ⟨ht, a1, ?_⟩, .inr (.inl ⟨rfl, ?_, .inl ⟨rfl, rfl⟩⟩), hq, ⟨[], rfl⟩, rfl, fun k => absurd ht k⟩
    · cases hm : l.ph.fMatch with
      | true => exact .inl rfl
      | false =>
        by_cases h2 : 2 ≤ l.ph.curr
        · exact .inr (.inl h2)
        · right; right
          have hc : l.ph.curr = 1 := by omega
          have := a4 (by simp [Loc.pos, hm, hc])
          simpa [Loc.pos, hm, get_eq, hc] using this
    · simp only [Loc.ctlRank, Loc.rank]
      split <;> omega
  · -- match
    rename_i hst
    exact steps_take hs ht hb' hq a1 (a3 (by simp [hst])) _ _
  · -- submatch
    rename_i hst
    have hi := a3 (by simp [hst])
    have hd := a6 hst
    refine next _ ?_ hq rfl rfl ?_
    · rw [base_from hs ht]
      refine ⟨b1, fun _ => ⟨hd, a1, Nat.le_refl _⟩, ?_, fun _ => ⟨a1, .inl rfl⟩⟩
      intro _
      right
      simp [Loc.pos]
    · rw [todo_from hs ht, todo_from hs ht]
      have h3 := b3 a1
      unfold Lt5
      rw [get_eq] at hi
      simp only [Loc.pos, if_true] at h3 ⊢
      cases hm : l.ph.fMatch with
      | true =>
        simp only [hm, if_true] at h3 ⊢
        obtain ⟨h1, h2, h3'⟩ := b2 hm
        rcases h3 with h3 | ⟨h3, h4⟩
        · left; omega
        · right
          refine ⟨by omega, .inl ?_⟩
          have e : l.prev.items.getD (l.ph.curr - 1) [] = l.prev.items.getD (l.ph.bak - 1) [] := by rw [h3]
          rw [e] at hi
          rw [e]
          omega
      | false =>
        simp only [hm, Bool.false_eq_true, if_false] at h3 ⊢
        rcases h3 with h3 | ⟨h3, h4⟩
        · left; omega
        · right
          refine ⟨by omega, .inl ?_⟩
          have e : l.prev.items.getD (l.ph.curr - 1) [] = l.prev.items.getD 0 [] := by rw [h3]
          rw [e] at hi
          rw [e]
          omega
  · rename_i hst; exact call (.inl hst)
  · rename_i hst; exact call (.inr hst)
  · -- nextphase
    rename_i hst
    have := steps_take hs ht hb' hq a1 (a3 (by simp [hst])) [] (l.rank .fromSw)
    exact this
  · -- cont
    rename_i hst
    refine next _ ?_ hq rfl rfl ?_
    · rw [base_from hs ht]
      refine ⟨b1, b2, ?_, ?_⟩
      · intro h
        rcases b3 h with k | ⟨k, k'⟩
        · exact .inl k
        · exact .inr ⟨k, Nat.le_trans k' (Nat.le_succ _)⟩
      · intro _
        refine ⟨a1, ?_⟩
        show l.ph.fMatch = true ∨ _
        cases hm : l.ph.fMatch with
        | true => exact .inl rfl
        | false =>
          right
          by_cases h2 : 2 ≤ l.ph.curr
          · exact .inl h2
          · right
            have hc : l.ph.curr = 1 := by omega
            have := a4 (by simp [Loc.pos, hm, hc])
            simpa [Loc.pos, hm, get_eq, hc] using this
    · rw [todo_from hs ht, todo_from hs ht]
      unfold Lt5
      simp only [Loc.pos]
      exact .inr ⟨trivial, .inr ⟨trivial, .inr ⟨trivial, .inr ⟨trivial, by omega⟩⟩⟩⟩
  · rename_i hst; rw [hst] at a5; simp at a5
  · rename_i hst; rw [hst] at a5; simp at a5
  · rename_i hst; rw [hst] at a5; simp at a5

theorem steps_fromDead {l : Loc π} (hb : l.Base s) (hq : l.prev.Ok) (ha : l.At s .fromDead) :
    l.Steps s (l.rank .fromDead) (fromDead s l).1 (fromDead s l).2 := by
  obtain ⟨_, a1, a2⟩ := ha
  rw [base_from hs ht] at hb
  obtain ⟨b1, b2, b3, b4⟩ := hb
  unfold fromDead
  simp only
  split
  · rename_i hm
    obtain ⟨h1, h2, h3⟩ := b2 hm
    obtain ⟨o1, o2⟩ := Queue.listFree_ok hq l.ph.bak
    unfold emitMatch
    simp only [ne_eq, h1, not_false_eq_true, if_true]
    refine ⟨?_, trivial, .inl ?_, o1, ⟨_, rfl⟩, rfl, fun k => absurd ht k⟩
    · rw [base_from hs ht]
      refine ⟨by simp [Ph.reset], by simp [Ph.reset], by simp [Ph.reset], by simp [Ph.reset]⟩
    · rw [todo_from hs ht, todo_from hs ht]
      unfold Lt5
      simp only [Loc.pos, Ph.reset, Bool.false_eq_true, if_false, o2, List.length_drop, getD_drop, hm, if_true, Nat.add_zero]
      exact .inr ⟨by omega, .inl (by omega)⟩
  · rename_i hm
    simp only [Bool.not_eq_true] at hm
    split
    · rename_i hix
      refine ⟨?_, ht, .inl ?_, hq, ⟨[], rfl⟩, rfl, fun k => absurd ht k⟩
      · rw [base_from hs ht]
        refine ⟨by simp, by simp [hm], by simp, by simp⟩
      · rw [todo_from hs ht, todo_from hs ht]
        unfold Lt5
        simp only [Loc.pos]
        exact .inr ⟨trivial, .inr ⟨trivial, .inl (by omega)⟩⟩
    · obtain ⟨o1, o2⟩ := Queue.listFree_ok hq l.ph.curr
      refine ⟨?_, ht, .inl ?_, o1, ⟨[], rfl⟩, rfl, fun k => absurd ht k⟩
      · rw [base_from hs ht]
        refine ⟨by simp [Ph.reset], by simp [Ph.reset, hm], by simp [Ph.reset], by simp [Ph.reset]⟩
      · rw [todo_from hs ht, todo_from hs ht]
        unfold Lt5
        simp only [Loc.pos, Ph.reset, Bool.false_eq_true, if_false, o2, List.length_drop, getD_drop, hm, Nat.add_zero]
        by_cases h2 : 2 ≤ l.ph.curr
        · left; omega
        · have hc : l.ph.curr = 1 := by omega
          have hl : l.ph.consumed < (l.prev.items.getD 0 []).length := by
            rcases a2 with k | k | k
            · rw [hm] at k; simp at k
            · omega
            · exact k
          right
          rw [hc]
          exact ⟨by omega, .inl (by simp only [Nat.sub_self]; omega)⟩

end From

/-! ### INTER and TO -/

theorem advance_frame (s : Static π) (p : Ph π) (c : Nat) : ∃ o, p.advance s c = { p with offset := o, st := o, status := (s.codec p).status o } :=
  ⟨_, rfl⟩

theorem scan_frame (s : Static π) (cs : List Nat) : ∀ p : Ph π, ∃ o t st f i, (p.scan s cs).2 = { p with offset := o, st := t, status := st, fLoop := f, i := i } ∧
    (cs ≠ [] → st = (s.codec p).status t) ∧ (cs = [] → st = p.status ∧ (p.scan s cs).1 = false) := by
  induction cs with
  | nil => intro p; exact ⟨p.offset, p.st, p.status, p.fLoop, p.i, rfl, by simp, by simp [Ph.scan]⟩
  | cons c cs ih =>
    intro p
    obtain ⟨o, e⟩ := advance_frame s p c
    have go : ∀ p' : Ph π, (∃ f i, p' = { p.advance s c with fLoop := f, i := i }) →
        ∃ o t st f i, (p'.scan s cs).2 = { p with offset := o, st := t, status := st, fLoop := f, i := i } ∧ st = (s.codec p).status t := by
      rintro p' ⟨f, i, rfl⟩
      obtain ⟨o', t', st', f', i', h1, h2, h3⟩ := ih { p.advance s c with fLoop := f, i := i }
      refine ⟨o', t', st', f', i', by rw [h1, e], ?_⟩
      by_cases hc : cs = []
      · subst hc
        simp only [Ph.scan] at h1
        have e1 := congrArg Ph.st h1
        have e2 := congrArg Ph.status h1
        rw [e] at e1 e2
        simp only at e1 e2
        rw [← e1, ← e2]
      · have := h2 hc
        rw [e] at this
        exact this
    have all : ∃ o t st f i, (p.scan s (c :: cs)).2 = { p with offset := o, st := t, status := st, fLoop := f, i := i } ∧ st = (s.codec p).status t := by
      simp only [Ph.scan]
      split
      · exact ⟨o, o, _, p.fLoop, p.i, by rw [e], rfl⟩
      · exact go _ ⟨_, _, rfl⟩
      · exact go _ ⟨_, _, rfl⟩
      · exact go _ ⟨_, _, rfl⟩
    obtain ⟨o, t, st, f, i, h1, h2⟩ := all
    exact ⟨o, t, st, f, i, h1, fun _ => h2, by simp⟩

/-- The phase is at a state of its automaton. -/
def Ph.Sited (s : Static π) (p : Ph π) : Prop := Visited (s.codec p) p.st ∧ (p.fLoop = true → Visited (s.codec p) p.offset)

theorem advance_sited {s : Static π} {p : Ph π} (h : p.Sited s) (c : Nat) : (p.advance s c).Sited s ∧ Visited (s.codec (p.advance s c)) (p.advance s c).offset := by
  have : Visited (s.codec p) (p.advance s c).offset := by
    unfold Ph.advance
    simp only
    split
    · rename_i hn; exact visited_next h.1 hn
    · split
      · rename_i hl; exact h.2 hl
      · exact visited_zero _
  exact ⟨⟨this, fun _ => this⟩, this⟩

theorem scan_sited (s : Static π) (cs : List Nat) : ∀ p : Ph π, p.Sited s → (p.scan s cs).2.Sited s := by
  induction cs with
  | nil => intro p h; exact h
  | cons c cs ih =>
    intro p h
    obtain ⟨h1, h2⟩ := advance_sited h c
    simp only [Ph.scan]
    split
    · exact h1
    · exact ih _ ⟨h2, fun _ => h2⟩
    · exact ih _ ⟨h2, fun _ => h2⟩
    · exact ih _ ⟨h2, fun _ => h2⟩

theorem getLast_drop (l : List Datum) (n : Nat) : (l.drop n).getLast?.getD [] = [] ∨ (l.drop n).getLast?.getD [] = l.getLast?.getD [] := by
  by_cases h : n < l.length
  · right; rw [List.getLast?_drop, if_neg (by omega)]
  · left; rw [List.drop_of_length_le (by omega)]; rfl

section It
variable {s : Static π} (hs : Progressive s) (ht : s.type ≠ .from_)
include hs ht

theorem todo_it (l : Loc π) : l.todo s = (l.prev.items.length + (if l.prev.items.getLast?.getD [] = [] then 0 else 2), 0,
      s.codecn - l.ph.index, l.prev.items.length - l.ph.curr, 0) := by
  unfold Loc.todo
  split
  · rename_i h; exact absurd h ht
  · rfl

theorem base_it (l : Loc π) : l.Base s ↔ l.ph.curr ≤ l.prev.items.length ∧
    (l.ph.fMatch = true → ((l.ph.matchData ≠ [] ∧ 2 ≤ l.ph.bak ∧ l.ph.bak ≤ l.prev.items.length) ∨ (l.ph.matchData = [] ∧ s.Lone)) ∧ 1 ≤ l.ph.curr) ∧
    (l.ph.fPending = true → 1 ≤ l.ph.curr) := by
  unfold Loc.Base
  split
  · rename_i h; exact absurd h ht
  · rfl

/-- Freeing data. -/
theorem todo_free {l l' : Loc π} {n : Nat} (hq : l.prev.Ok) (h1 : 1 ≤ n) (h2 : n ≤ l.prev.items.length) (e : l'.prev.items = l.prev.items.drop n) :
    Lt5 (l'.todo s) (l.todo s) := by
  rw [todo_it hs ht, todo_it hs ht]
  unfold Lt5
  simp only [e, List.length_drop]
  left
  rcases getLast_drop l.prev.items n with k | k
  · rw [if_pos k]; omega
  · rw [k]; omega

theorem steps_outer {l : Loc π} (hb : l.Base s) (hsi : l.Sited s) (hq : l.prev.Ok) {outer sw dead : PC} (hr : l.rank outer = if l.prev.hasNext l.ph.curr then 2 else 7)
    (hsw : ∀ l' : Loc π, SwAt s l' → l'.At s sw) (hdd : ∀ l' : Loc π, 1 ≤ l'.ph.curr → l'.At s dead) :
    l.Steps s (l.rank outer) (itOuter s l sw dead).1 (itOuter s l sw dead).2 := by
  have hb' := hb
  rw [base_it hs ht] at hb
  obtain ⟨b1, b2, b3⟩ := hb
  unfold itOuter
  split
  · rename_i h
    simp only [Queue.hasNext, decide_eq_true_eq] at h
    obtain ⟨o, t, st, f, i, e, k1, k2⟩ := scan_frame s (l.prev.get (l.ph.curr + 1)) { l.ph with curr := l.ph.curr + 1, status := .nomatch, i := 0 }
    have hsc := scan_sited s (l.prev.get (l.ph.curr + 1)) { l.ph with curr := l.ph.curr + 1, status := .nomatch, i := 0 } hsi.2
    rw [e] at hsc
    have hrt : Visited (s.codecs l.ph.index) t := hsc.1
    simp only
    refine ⟨?_, ?_, .inl ?_, hq, ⟨[], by rw [e]; rfl⟩, rfl, fun _ => by rw [e]⟩
    · rw [base_it hs ht, e]
      refine ⟨by simp only; omega, ?_, ?_⟩
      · intro hm; obtain ⟨h1, h4⟩ := b2 hm; exact ⟨h1, by simp only; omega⟩
      · intro _; simp only; omega
    · simp only [Loc.goal]
      split
      · exact hdd _ (by rw [e]; simp)
      · refine hsw _ ?_
        unfold SwAt
        rw [e]
        by_cases hc : l.prev.get (l.ph.curr + 1) = []
        · have := (k2 hc).1
          simp only at this
          subst this
          refine ⟨by simp, .inl rfl, by simp, by simp, by simp [Status.calls]⟩
        · have hst := k1 hc
          refine ⟨by simp, .inr hc, ?_, ?_, ?_⟩
          · simp only
            rw [hst]
            have := hs.kinds l.ph.index t hsi.1 hrt
            simp only [List.mem_cons, List.not_mem_nil, or_false] at this ⊢
            show (s.codecs l.ph.index).status t = _ ∨ _
            rcases this with h | h | h | h | h | h <;> simp [Static.codec, h]
          · intro h
            simp only at h
            rw [hst] at h
            exact hs.data _ _ hsi.1 hrt h
          · intro h
            simp only at h
            rw [hst] at h
            exact h
    · rw [todo_it hs ht, todo_it hs ht]
      unfold Lt5
      rw [e]
      simp only
      exact .inr ⟨trivial, .inr ⟨trivial, .inr ⟨trivial, .inl (by omega)⟩⟩⟩
  · rename_i h
    refine ⟨hb', trivial, .inr (.inl ⟨rfl, ?_, .inl ⟨rfl, rfl⟩⟩), hq, ⟨[], rfl⟩, rfl, fun _ => rfl⟩
    show 6 < l.rank outer
    rw [hr, if_neg (by simpa using h)]
    omega

/-- Taking the data up to `curr`. -/
theorem steps_free {l : Loc π} (hb : l.Base s) (hq : l.prev.Ok) (hc : 1 ≤ l.ph.curr) (ds : List Datum) (r : Nat) : l.Steps s r
      { l with
        prev := l.prev.listFree (l.ph.curr + 1)
        ph := ({ l.ph with
          fMatch := false, fPending := false, fLoop := false, matchData := [], q := l.ph.q.pushAll ds, bak := l.ph.curr + 1,
          curr := 0 } : Ph π).reset s } .nextBegin := by
  rw [base_it hs ht] at hb
  obtain ⟨b1, b2, b3⟩ := hb
  obtain ⟨o1, o2⟩ := Queue.listFree_ok hq (l.ph.curr + 1)
  refine ⟨?_, trivial, .inl ?_, o1, ⟨ds, rfl⟩, rfl, fun _ => rfl⟩
  · rw [base_it hs ht]
    refine ⟨by simp [Ph.reset], by simp [Ph.reset], by simp [Ph.reset]⟩
  · exact todo_free hs ht hq (n := l.ph.curr) hc b1 (by simpa using o2)

theorem steps_sep {l l0 : Loc π} (hb : l.Base s) (hq : l.prev.Ok) (hc : 1 ≤ l.ph.curr) {outer dead : PC} {r : Nat}
    (hbig : 20 ≤ r) (hr3 : ∀ l' : Loc π, l'.rank outer ≤ 19 ∧ l'.rank dead ≤ 19) (hlt : Lt5 (l.todo s) (l0.todo s) ∨ l.todo s = l0.todo s) (hq0 : l.ph.q = l0.ph.q) (hh : l.prevHeadLen = l0.prevHeadLen) (hcs : l.ph.consumed = l0.ph.consumed)
    (hr1 : ∀ l' : Loc π, l'.rank outer < r) (hr2 : ∀ l' : Loc π, l'.rank dead < r)
    (hou : ∀ l' : Loc π, l'.At s outer) (hdd : ∀ l' : Loc π, 1 ≤ l'.ph.curr → l'.At s dead) :
    l0.Steps s r (itSep s l outer dead).1 (itSep s l outer dead).2 := by
  have hb' := hb
  rw [base_it hs ht] at hb
  obtain ⟨b1, b2, b3⟩ := hb
  obtain ⟨o, e⟩ := advance_frame s l.ph 256
  unfold itSep
  simp only [e]
  have htodo : ({ l with ph := { l.ph with offset := o, st := o, status := (s.codec l.ph).status o } } : Loc π).todo s = l.todo s := by
    rw [todo_it hs ht, todo_it hs ht]
  refine ⟨?_, ?_, ?_, hq, ⟨[], by simp [hq0]; rfl⟩, hh, fun _ => hcs⟩
  · rw [base_it hs ht]; exact ⟨b1, b2, b3⟩
  · simp only [Loc.goal]
    split
    · exact hdd _ hc
    · exact hou _
  · rw [htodo]
    rcases hlt with h | h
    · exact .inl h
    · refine .inr (.inl ⟨h, ?_, .inr ?_⟩)
      · simp only [Loc.ctlRank]
        split
        · exact hr2 _
        · exact hr1 _
      · have : ∀ (l' : Loc π) (b : Prop) [Decidable b], l'.ctlRank (.goto (if b then dead else outer)) ≤ 19 := by
          intro l' b _
          simp only [Loc.ctlRank]
          split
          · exact (hr3 _).2
          · exact (hr3 _).1
        exact Nat.lt_of_le_of_lt (Nat.sub_le_sub_right (this _ _) 19) (by omega)

theorem itSubmatch_facts {l : Loc π} (hb : l.Base s) (hq : l.prev.Ok) (hc : 1 ≤ l.ph.curr) (hne : l.prev.get l.ph.curr ≠ [])
    (hd : (s.codec l.ph).data l.ph.st ≠ [] ∨ s.Lone) :
    (itSubmatch s l).Base s ∧ (itSubmatch s l).prev.Ok ∧ (Lt5 ((itSubmatch s l).todo s) (l.todo s) ∨ (itSubmatch s l).todo s = l.todo s) ∧
      (itSubmatch s l).ph.q = l.ph.q ∧ (itSubmatch s l).prevHeadLen = l.prevHeadLen ∧ (itSubmatch s l).ph.consumed = l.ph.consumed ∧
      (itSubmatch s l).ph.curr = l.ph.curr := by
  rw [base_it hs ht] at hb
  obtain ⟨b1, b2, b3⟩ := hb
  unfold itSubmatch
  simp only
  split
  · rename_i h
    simp only [Queue.hasNext, decide_eq_true_eq] at h
    refine ⟨?_, hq, .inr ?_, rfl, rfl, rfl, rfl⟩
    · rw [base_it hs ht]
      refine ⟨b1, fun _ => ⟨?_, hc⟩, fun _ => hc⟩
      by_cases hd' : (s.codec l.ph).data l.ph.st = []
      · exact .inr ⟨hd', hd.resolve_left (fun k => k hd')⟩
      · exact .inl ⟨hd', by simp only; omega, by simp only; omega⟩
    · rw [todo_it hs ht, todo_it hs ht]
  · rename_i h
    simp only [Queue.hasNext, decide_eq_true_eq, Nat.not_lt] at h
    obtain ⟨o1, o2⟩ := Queue.push_ok hq []
    unfold Queue.Ok at hq
    have hl : l.ph.curr = l.prev.items.length := by omega
    refine ⟨?_, o1, .inl ?_, rfl, rfl, rfl, rfl⟩
    · rw [base_it hs ht]
      simp only [o2, List.length_append, List.length_cons, List.length_nil]
      refine ⟨by omega, fun _ => ⟨?_, hc⟩, fun _ => hc⟩
      by_cases hd' : (s.codec l.ph).data l.ph.st = []
      · exact .inr ⟨hd', hd.resolve_left (fun k => k hd')⟩
      · exact .inl ⟨hd', by omega, by omega⟩
    · rw [todo_it hs ht, todo_it hs ht]
      unfold Lt5
      simp only [o2, List.length_append, List.length_cons, List.length_nil, List.getLast?_concat, Option.getD_some, if_true]
      left
      have : l.prev.items.getLast?.getD [] ≠ [] := by
        rw [get_eq, hl] at hne
        rw [List.getLast?_eq_getElem?]
        simpa [List.getD] using hne
      rw [if_neg this]
      omega

theorem steps_dead {l : Loc π} (hb : l.Base s) (hsi : l.Sited s) (hq : l.prev.Ok) (hc : 1 ≤ l.ph.curr) (r : Nat) (hr : r ≤ 19) :
    (l.ph.fMatch = true → ∀ c, (c = .nextBegin ∨ c = .goto .begin) →
      l.Steps s r (emitMatch s { l with ph := { l.ph with fPending := false, fLoop := false } } false) c) ∧
    (l.ph.fMatch = false → l.ph.index < s.codecn → ∀ status outer, (∀ l' : Loc π, l'.At s outer) →
      l.Steps s r { l with ph := { l.ph with fPending := false, fLoop := false, index := l.ph.index + 1, st := 0, status := status, curr := 0 } } (.goto outer)) := by
  rw [base_it hs ht] at hb
  obtain ⟨b1, b2, b3⟩ := hb
  constructor
  · intro hm c hcc
    obtain ⟨h1 | ⟨hne, hlone⟩, h4⟩ := b2 hm
    case inr =>
      have hi0 : l.ph.index = 0 := by have := hsi.1; rw [hlone.2] at this; omega
      have hc8 : ∀ l' : Loc π, l'.ctlRank c ≤ 19 := by
        intro l'
        rcases hcc with rfl | rfl <;> simp [Loc.ctlRank, Loc.rank]
      have done : ∀ ds priv status, l.Steps s r { l with ph := ({ l.ph with fPending := false, fLoop := false, q := l.ph.q.pushAll ds, priv := priv, status := status, fMatch := false } : Ph π).reset s } c := by
        intro ds priv status
        refine ⟨?_, by rcases hcc with rfl | rfl <;> trivial, .inr (.inr ⟨?_, hc8 _, hr, by simp [Loc.kept, hm, Ph.reset]⟩), hq, ⟨ds, rfl⟩, rfl, fun _ => rfl⟩
        · rw [base_it hs ht]
          refine ⟨by simpa [Ph.reset] using b1, by simp [Ph.reset], by simp [Ph.reset]⟩
        · rw [todo_it hs ht, todo_it hs ht]
          simp [Ph.reset, hi0]
      unfold emitMatch
      simp only [ne_eq]
      rw [if_neg (by simp [hne])]
      split
      · rename_i f hf
        simp only [Static.codec, hi0] at hf
        obtain ⟨ds, priv, status, e⟩ := hs.flush f hlone hf { l with ph := { l.ph with fPending := false, fLoop := false } }
        simp only at e ⊢
        rw [e]
        exact done ds priv status
      · exact done [] l.ph.priv l.ph.status
    obtain ⟨h1, h2, h3⟩ := h1
    obtain ⟨o1, o2⟩ := Queue.listFree_ok hq l.ph.bak
    unfold emitMatch
    simp only [ne_eq, h1, not_false_eq_true, if_true]
    refine ⟨?_, by rcases hcc with rfl | rfl <;> trivial, .inl ?_, o1, ⟨_, rfl⟩, rfl, fun _ => rfl⟩
    · rw [base_it hs ht]
      refine ⟨by simp [Ph.reset], by simp [Ph.reset], by simp [Ph.reset]⟩
    · exact todo_free hs ht hq (n := l.ph.bak - 1) (by omega) (by omega) o2
  · intro hm hix status outer hou
    refine ⟨?_, hou _, .inl ?_, hq, ⟨[], rfl⟩, rfl, fun _ => rfl⟩
    · rw [base_it hs ht]
      refine ⟨by simp, by simp [hm], by simp⟩
    · rw [todo_it hs ht, todo_it hs ht]
      unfold Lt5
      simp only
      exact .inr ⟨trivial, .inr ⟨trivial, .inl (by omega)⟩⟩

theorem steps_interDead {l : Loc π} (hi : s.type = .inter) (hb : l.Base s) (hsi : l.Sited s) (hq : l.prev.Ok) (hc : 1 ≤ l.ph.curr) (r : Nat) (hr : r ≤ 19) :
    l.Steps s r (interDead s l).1 (interDead s l).2 := by
  obtain ⟨d1, d2⟩ := steps_dead hs ht hb hsi hq hc r hr
  unfold interDead
  simp only
  split
  · rename_i hm; exact d1 hm _ (.inr rfl)
  · rename_i hm
    simp only [Bool.not_eq_true] at hm
    split
    · rename_i hix
      exact d2 hm hix _ _ (fun _ => hi)
    · rw [base_it hs ht] at hb
      obtain ⟨b1, b2, b3⟩ := hb
      cases hit : l.prev.items with
      | nil => rw [hit] at b1; simp at b1; omega
      | cons d ds =>
        simp only
        have hok : (⟨ds, l.prev.tail - 1⟩ : Queue).Ok := by
          unfold Queue.Ok at hq ⊢
          rw [hit] at hq
          simp only [List.length_cons] at hq ⊢; omega
        refine ⟨?_, trivial, .inl ?_, hok, ⟨[d], rfl⟩, rfl, fun _ => rfl⟩
        · rw [base_it hs ht]
          refine ⟨by simp [Ph.reset], by simp [Ph.reset, hm], by simp [Ph.reset]⟩
        · exact todo_free hs ht hq (n := 1) (Nat.le_refl _) (by omega) (by simp [hit])

theorem steps_toDead {l : Loc π} (hi : s.type = .to_) (hb : l.Base s) (hsi : l.Sited s) (hq : l.prev.Ok) (hc : 1 ≤ l.ph.curr) (r : Nat) (hr : r ≤ 19) :
    l.Steps s r (toDead s l).1 (toDead s l).2 := by
  obtain ⟨d1, d2⟩ := steps_dead hs ht hb hsi hq hc r hr
  unfold toDead
  simp only
  split
  · rename_i hm; exact d1 hm _ (.inl rfl)
  · rename_i hm
    simp only [Bool.not_eq_true] at hm
    split
    · rename_i hix
      exact d2 hm hix _ _ (fun _ => hi)
    · rw [base_it hs ht] at hb
      obtain ⟨b1, b2, b3⟩ := hb
      obtain ⟨o1, o2⟩ := Queue.listFree_ok hq (l.ph.curr + 1)
      refine ⟨?_, hi, .inl ?_, o1, ⟨[], rfl⟩, rfl, fun _ => rfl⟩
      · rw [base_it hs ht]
        refine ⟨by simp [Ph.reset], by simp [Ph.reset, hm], by simp [Ph.reset]⟩
      · exact todo_free hs ht hq (n := l.ph.curr) hc b1 (by simpa [Ph.reset] using o2)

theorem steps_call {l : Loc π} (hb : l.Base s) (hsi : l.Sited s) (hq : l.prev.Ok) (ha : SwAt s l) (hst : l.ph.status = .subroutine ∨ l.ph.status = .submatchSubroutine)
    {sw : PC} (hr : ∀ l' : Loc π, l'.rank sw = if l'.ph.status = .subroutine ∨ l'.ph.status = .submatchSubroutine then 21 else 20)
    (hsw : ∀ l' : Loc π, SwAt s l' → l'.At s sw) : l.Steps s (l.rank sw) ((s.codec l.ph).conv l) (.goto sw) := by
  obtain ⟨a1, a2, a3, a4, a5⟩ := ha
  rw [base_it hs ht] at hb
  obtain ⟨b1, b2, b3⟩ := hb
  obtain ⟨ds, priv, status, i, e, m1, _⟩ := hs.conv l hsi.1 hsi.2.1 (a5 hst) a1 b1 (fun k => absurd k ht)
  rw [e]
  refine ⟨?_, hsw _ ?_, .inr (.inl ⟨?_, ?_⟩), hq, ⟨ds, rfl⟩, rfl, fun _ => rfl⟩
  · rw [base_it hs ht]; exact ⟨b1, b2, b3⟩
  · refine ⟨a1, .inr ?_, ?_, ?_, ?_⟩
    · rcases a2 with h | h
      · rw [h] at hst; simp at hst
      · exact h
    · simp only [List.mem_cons, List.not_mem_nil, or_false] at m1 ⊢
      rcases m1 with (h | h | h | h) | h <;> simp [h]
    · intro h
      simp only at h
      subst h
      simp only [List.mem_cons, List.not_mem_nil, or_false] at m1
      rcases m1 with h | h
      · simp at h
      · exact .inr h.2
    · rintro (h | h) <;> (simp only at h; subst h; simp at m1)
  · rw [todo_it hs ht, todo_it hs ht]
  · simp only [Loc.ctlRank]
    rw [hr, hr, if_pos hst, if_neg (by rintro (h | h) <;> (simp only at h; subst h; simp at m1))]
    exact ⟨by omega, .inr (by omega)⟩

theorem steps_interSw {l : Loc π} (hi : s.type = .inter) (hb : l.Base s) (hsi : l.Sited s) (hq : l.prev.Ok) (ha : SwAt s l) :
    l.Steps s (l.rank .interSw) (interSw s l).1 (interSw s l).2 := by
  have ha' := ha
  obtain ⟨a1, a2, a3, a4, a5⟩ := ha
  have big : 20 ≤ l.rank .interSw := by simp only [Loc.rank]; split <;> omega
  have r1 : ∀ l' : Loc π, l'.rank .interOuter < l.rank .interSw := by
    intro l'
    have : l'.rank .interOuter ≤ 7 := by simp only [Loc.rank]; split <;> omega
    omega
  have r3 : ∀ l' : Loc π, l'.rank .interOuter ≤ 19 ∧ l'.rank .interDead ≤ 19 := by
    intro l'
    refine ⟨?_, by simp [Loc.rank]⟩
    simp only [Loc.rank]; split <;> omega
  have r2 : ∀ l' : Loc π, l'.rank .interDead < l.rank .interSw := by intro l'; simp only [Loc.rank] at big ⊢; omega
  unfold interSw
  split
  · exact ⟨hb, trivial, .inr (.inl ⟨rfl, by simp only [Loc.ctlRank]; omega, .inl ⟨rfl, rfl⟩⟩), hq, ⟨[], rfl⟩, rfl, fun _ => rfl⟩
  · exact ⟨hb, ⟨hi, a1⟩, .inr (.inl ⟨rfl, r2 l, .inl ⟨rfl, rfl⟩⟩), hq, ⟨[], rfl⟩, rfl, fun _ => rfl⟩
  · exact steps_free hs ht hb hq a1 _ _
  · rename_i hst
    have hne : l.prev.get l.ph.curr ≠ [] := by
      rcases a2 with h | h
      · rw [h] at hst; simp at hst
      · exact h
    obtain ⟨f1, f2, f3, f4, f5, f6, f7⟩ := itSubmatch_facts hs ht hb hq a1 hne (a4 hst)
    exact steps_sep hs ht f1 f2 (by omega) big r3 f3 f4 f5 f6 r1 r2 (fun _ => hi) (fun _ h => ⟨hi, h⟩)
  · rename_i hst; exact steps_call hs ht hb hsi hq ha' (.inl hst) (fun _ => rfl) (fun _ h => ⟨hi, h⟩)
  · rename_i hst; exact steps_call hs ht hb hsi hq ha' (.inr hst) (fun _ => rfl) (fun _ h => ⟨hi, h⟩)
  · exact steps_free hs ht hb hq a1 [] _
  · rw [base_it hs ht] at hb
    refine steps_sep (l := { l with ph := { l.ph with fPending := true } }) hs ht ?_ hq a1 big r3 (.inr ?_) rfl rfl rfl r1 r2 (fun _ => hi) (fun _ h => ⟨hi, h⟩)
    · rw [base_it hs ht]; exact ⟨hb.1, hb.2.1, fun _ => a1⟩
    · rw [todo_it hs ht, todo_it hs ht]
  · rename_i hst; rw [hst] at a3; simp at a3
  · rename_i hst; rw [hst] at a3; simp at a3

theorem steps_toSw {l : Loc π} (hi : s.type = .to_) (hb : l.Base s) (hsi : l.Sited s) (hq : l.prev.Ok) (ha : SwAt s l) :
    l.Steps s (l.rank .toSw) (toSw s l).1 (toSw s l).2 := by
  have ha' := ha
  obtain ⟨a1, a2, a3, a4, a5⟩ := ha
  have big : 20 ≤ l.rank .toSw := by simp only [Loc.rank]; split <;> omega
  have r1 : ∀ l' : Loc π, l'.rank .toOuter < l.rank .toSw := by
    intro l'
    have : l'.rank .toOuter ≤ 7 := by simp only [Loc.rank]; split <;> omega
    omega
  have r3 : ∀ l' : Loc π, l'.rank .toOuter ≤ 19 ∧ l'.rank .toDead ≤ 19 := by
    intro l'
    refine ⟨?_, by simp [Loc.rank]⟩
    simp only [Loc.rank]; split <;> omega
  have r2 : ∀ l' : Loc π, l'.rank .toDead < l.rank .toSw := by intro l'; simp only [Loc.rank] at big ⊢; omega
  unfold toSw
  split
  · exact ⟨hb, hi, .inr (.inl ⟨rfl, r1 l, .inl ⟨rfl, rfl⟩⟩), hq, ⟨[], rfl⟩, rfl, fun _ => rfl⟩
  · exact ⟨hb, ⟨hi, a1⟩, .inr (.inl ⟨rfl, r2 l, .inl ⟨rfl, rfl⟩⟩), hq, ⟨[], rfl⟩, rfl, fun _ => rfl⟩
  · exact steps_free hs ht hb hq a1 _ _
  · rename_i hst
    have hne : l.prev.get l.ph.curr ≠ [] := by
      rcases a2 with h | h
      · rw [h] at hst; simp at hst
      · exact h
    obtain ⟨f1, f2, f3, f4, f5, f6, f7⟩ := itSubmatch_facts hs ht hb hq a1 hne (a4 hst)
    exact steps_sep hs ht f1 f2 (by omega) big r3 f3 f4 f5 f6 r1 r2 (fun _ => hi) (fun _ h => ⟨hi, h⟩)
  · rename_i hst; exact steps_call hs ht hb hsi hq ha' (.inl hst) (fun _ => rfl) (fun _ h => ⟨hi, h⟩)
  · rename_i hst; exact steps_call hs ht hb hsi hq ha' (.inr hst) (fun _ => rfl) (fun _ h => ⟨hi, h⟩)
  · exact steps_free hs ht hb hq a1 [] _
  · rw [base_it hs ht] at hb
    refine steps_sep (l := { l with ph := { l.ph with fPending := true, fLoop := false } }) hs ht ?_ hq a1 big r3 (.inr ?_) rfl rfl rfl r1 r2 (fun _ => hi) (fun _ h => ⟨hi, h⟩)
    · rw [base_it hs ht]; exact ⟨hb.1, hb.2.1, fun _ => a1⟩
    · rw [todo_it hs ht, todo_it hs ht]
  · rename_i hst; rw [hst] at a3; simp at a3
  · rename_i hst; rw [hst] at a3; simp at a3

end It

/-- Every step inside a phase. -/
theorem steps_local {s : Static π} (hs : Progressive s) {l : Loc π} {pc : PC} (hb : l.Base s) (hsi : l.Sited s) (hq : l.prev.Ok)
    (hh : s.type = .from_ → l.prevHeadLen = 0) (ha : l.At s pc) (h1 : pc ≠ .begin) (h2 : pc ≠ .leave) :
    l.Steps s (l.rank pc) (localStep s pc l).1 (localStep s pc l).2 := by
  have ni : s.type = .inter → s.type ≠ .from_ := by intro h; rw [h]; simp
  have nt : s.type = .to_ → s.type ≠ .from_ := by intro h; rw [h]; simp
  cases pc with
  | begin => exact absurd rfl h1
  | leave => exact absurd rfl h2
  | fromOuter => exact steps_fromOuter hs ha hb hq
  | fromInner => exact steps_fromInner hs ha hb hsi hq (hh ha)
  | fromSw => exact steps_fromSw hs ha.1 hb hsi hq ha
  | fromDead => exact steps_fromDead hs ha.1 hb hq ha
  | interOuter => exact steps_outer hs (ni ha) hb hsi hq rfl (fun _ h => ⟨ha, h⟩) (fun _ h => ⟨ha, h⟩)
  | interSw => exact steps_interSw hs (ni ha.1) ha.1 hb hsi hq ha.2
  | interDead => exact steps_interDead hs (ni ha.1) ha.1 hb hsi hq ha.2 _ (by simp [Loc.rank])
  | toOuter => exact steps_outer hs (nt ha) hb hsi hq rfl (fun _ h => ⟨ha, h⟩) (fun _ h => ⟨ha, h⟩)
  | toSw => exact steps_toSw hs (nt ha.1) ha.1 hb hsi hq ha.2
  | toDead => exact steps_toDead hs (nt ha.1) ha.1 hb hsi hq ha.2 _ (by simp [Loc.rank])
  | checkBack => exact absurd ha (by simp [Loc.At])
  | flushScan => exact absurd ha (by simp [Loc.At])
  | done => exact absurd ha (by simp [Loc.At])
  | ub => exact absurd ha (by simp [Loc.At])

/-! ### The state of the automaton -/

theorem sited_reset (s : Static π) (l : Loc π) (p : Ph π) (h1 : l.ph = p.reset s) : l.Sited s := by
  unfold Loc.Sited
  rw [h1]
  exact ⟨Nat.zero_le _, visited_zero _, fun _ => visited_zero _⟩

theorem sited_keep {s : Static π} {l l' : Loc π} (h : l.Sited s) (h1 : l'.ph.index = l.ph.index) (h2 : l'.ph.st = l.ph.st)
    (h3 : l'.ph.fLoop = true → l.ph.fLoop = true ∧ l'.ph.offset = l.ph.offset) : l'.Sited s := by
  unfold Loc.Sited Static.codec at h ⊢
  rw [h1, h2]
  refine ⟨h.1, h.2.1, fun hl => ?_⟩
  rw [(h3 hl).2]
  exact h.2.2 (h3 hl).1

theorem sited_emit (s : Static π) (l : Loc π) (b : Bool) : (emitMatch s l b).Sited s := sited_reset s _ _ rfl

theorem sited_sep {s : Static π} {l : Loc π} (h : l.Sited s) (outer dead : PC) : (itSep s l outer dead).1.Sited s :=
  ⟨h.1, (advance_sited h.2 256).1⟩

theorem sited_outer {s : Static π} {l : Loc π} (h : l.Sited s) (sw dead : PC) : (itOuter s l sw dead).1.Sited s := by
  unfold itOuter
  split
  · have := scan_sited s (l.prev.get (l.ph.curr + 1)) { l.ph with curr := l.ph.curr + 1, status := .nomatch, i := 0 } h.2
    refine ⟨?_, this⟩
    obtain ⟨o, t, st, f, i, e, _⟩ := scan_frame s (l.prev.get (l.ph.curr + 1)) { l.ph with curr := l.ph.curr + 1, status := .nomatch, i := 0 }
    simp only
    rw [e]
    exact h.1
  · exact h

theorem sited_submatch {s : Static π} {l : Loc π} (h : l.Sited s) : (itSubmatch s l).Sited s := by
  unfold itSubmatch
  simp only
  split
  · exact sited_keep h rfl rfl (fun k => ⟨k, rfl⟩)
  · exact sited_keep h rfl rfl (fun k => ⟨k, rfl⟩)

/-- Every step inside a phase. -/
theorem sited_local {s : Static π} (hs : Progressive s) {l : Loc π} {pc : PC} (hb : l.Base s) (hsi : l.Sited s)
    (ha : l.At s pc) (h1 : pc ≠ .begin) (h2 : pc ≠ .leave) : (localStep s pc l).1.Sited s := by
  have conv : ∀ (hst : l.ph.status.calls), (l.ph.status.calls → ((s.codec l.ph).status l.ph.st).calls) → 1 ≤ l.ph.curr →
      (s.type = .from_ → l.ph.i < (l.prev.get l.ph.curr).length) →
      ∃ ds priv status i, (s.codec l.ph).conv l = { l with ph := { l.ph with q := l.ph.q.pushAll ds, priv := priv, status := status, i := i } } := by
    intro hst hc h1 h2
    obtain ⟨ds, priv, status, i, e, _⟩ := hs.conv l hsi.1 hsi.2.1 (hc hst) h1 hb.1 h2
    exact ⟨ds, priv, status, i, e⟩
  cases pc with
  | begin => exact absurd rfl h1
  | leave => exact absurd rfl h2
  | fromOuter =>
    show (fromOuter l).1.Sited s
    unfold fromOuter
    split
    · exact sited_keep hsi rfl rfl (fun k => ⟨k, rfl⟩)
    · exact hsi
  | fromInner =>
    show (fromInner s l).1.Sited s
    unfold fromInner
    split
    · split <;> exact hsi
    · split
      · exact ⟨hsi.1, (advance_sited hsi.2 _).1⟩
      · exact hsi
  | fromSw =>
    obtain ⟨ht, a1, a2, a3, a4, a5, a6, a7⟩ := ha
    have call : ∀ (hst : l.ph.status.calls), ({ (s.codec l.ph).conv l with ph := { ((s.codec l.ph).conv l).ph with fLoop := true } } : Loc π).Sited s := by
      intro hst
      obtain ⟨ds, priv, status, i, e⟩ := conv hst (fun h => (a7 h).1) a1 (fun _ => a3 (by rcases hst with h | h <;> simp [h]))
      rw [e]
      -- the loop flag is set where the offset is the state just read
      exact ⟨hsi.1, hsi.2.1, fun _ => (a7 hst).2⟩
    show (fromSw s l).1.Sited s
    unfold fromSw
    split
    · exact hsi
    · exact sited_reset s _ _ rfl
    · exact sited_keep hsi rfl rfl (fun k => ⟨k, rfl⟩)
    · rename_i h; exact call (.inl h)
    · rename_i h; exact call (.inr h)
    · exact sited_reset s _ _ rfl
    · exact sited_keep hsi rfl rfl (fun k => ⟨k, rfl⟩)
    · exact hsi
    · exact hsi
    · exact sited_keep hsi rfl rfl (fun k => ⟨k, rfl⟩)
  | fromDead =>
    show (fromDead s l).1.Sited s
    unfold fromDead
    simp only
    split
    · exact sited_emit _ _ _
    · split
      · rename_i hi
        exact ⟨by simp only; omega, visited_zero _, by simp⟩
      · exact sited_reset s _ ({ l.ph with fPending := false, fLoop := false, bak := 0, curr := 0, consumed := l.ph.consumed + 1, i := l.ph.consumed + 1 } : Ph π) rfl
  | interOuter => exact sited_outer hsi _ _
  | toOuter => exact sited_outer hsi _ _
  | interSw =>
    obtain ⟨ht, a1, a2, a3, a4, a5⟩ := ha
    have call : ∀ (hst : l.ph.status.calls), ((s.codec l.ph).conv l).Sited s := by
      intro hst
      obtain ⟨ds, priv, status, i, e⟩ := conv hst a5 a1 (fun k => absurd k (by rw [ht]; simp))
      rw [e]
      exact sited_keep hsi rfl rfl (fun k => ⟨k, rfl⟩)
    show (interSw s l).1.Sited s
    unfold interSw
    split
    · exact hsi
    · exact hsi
    · exact sited_reset s _ _ rfl
    · exact sited_sep (sited_submatch hsi) _ _
    · rename_i h; exact call (.inl h)
    · rename_i h; exact call (.inr h)
    · exact sited_reset s _ _ rfl
    · exact sited_sep (l := { l with ph := { l.ph with fPending := true } }) (sited_keep hsi rfl rfl (fun k => ⟨k, rfl⟩)) .interOuter .interDead
    · exact hsi
    · exact hsi
  | toSw =>
    obtain ⟨ht, a1, a2, a3, a4, a5⟩ := ha
    have call : ∀ (hst : l.ph.status.calls), ((s.codec l.ph).conv l).Sited s := by
      intro hst
      obtain ⟨ds, priv, status, i, e⟩ := conv hst a5 a1 (fun k => absurd k (by rw [ht]; simp))
      rw [e]
      exact sited_keep hsi rfl rfl (fun k => ⟨k, rfl⟩)
    show (toSw s l).1.Sited s
    unfold toSw
    split
    · exact hsi
    · exact hsi
    · exact sited_reset s _ _ rfl
    · exact sited_sep (sited_submatch hsi) _ _
    · rename_i h; exact call (.inl h)
    · rename_i h; exact call (.inr h)
    · exact sited_reset s _ _ rfl
    · exact sited_sep (l := { l with ph := { l.ph with fPending := true, fLoop := false } }) (sited_keep hsi rfl rfl (by simp)) _ _
    · exact hsi
    · exact hsi
  | interDead =>
    show (interDead s l).1.Sited s
    unfold interDead
    simp only
    split
    · exact sited_emit _ _ _
    · split
      · exact ⟨by simp only; omega, visited_zero _, by simp⟩
      · split
        · exact sited_keep hsi rfl rfl (by simp)
        · exact sited_reset s _ _ rfl
  | toDead =>
    show (toDead s l).1.Sited s
    unfold toDead
    simp only
    split
    · exact sited_emit _ _ _
    · split
      · exact ⟨by simp only; omega, visited_zero _, by simp⟩
      · exact sited_reset s _ ({ l.ph with fPending := false, fLoop := false, bak := 0, curr := 0 } : Ph π) rfl
  | checkBack => exact absurd ha (by simp [Loc.At])
  | flushScan => exact absurd ha (by simp [Loc.At])
  | done => exact absurd ha (by simp [Loc.At])
  | ub => exact absurd ha (by simp [Loc.At])

end Verif.Engine
