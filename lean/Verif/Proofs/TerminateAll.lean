import Verif.Proofs.Terminate
import Verif.Model.Output
import Verif.Model.Callback
/-
Termination of `bsdconv()`: all phases together.
-/
namespace Verif.Engine
open Verif.Spec

variable {π : Type}

/-! ### The order -/

/-- What is left in one phase: its measure, how far it is inside a datum, and whether it remembers a match. -/
abbrev Left := (Nat × Nat × Nat × Nat × Nat) × Nat × Nat

def LeftLt (a b : Left) : Prop := Lt5 a.1 b.1 ∨ (a.1 = b.1 ∧ (a.2.1 < b.2.1 ∨ (a.2.1 = b.2.1 ∧ a.2.2 < b.2.2)))

theorem leftLt_wf : WellFounded LeftLt := by
  refine Subrelation.wf ?_ (Prod.lex ⟨_, lt5_wf⟩ ⟨_, (Prod.lex ⟨_, Nat.lt_wfRel.wf⟩ ⟨_, Nat.lt_wfRel.wf⟩).wf⟩).wf
  rintro ⟨a, x, u⟩ ⟨b, y, v⟩ h
  rcases h with h | ⟨h, h' | ⟨h', h''⟩⟩
  · exact Prod.Lex.left _ _ h
  · simp only at h h'
    subst h
    exact Prod.Lex.right _ (Prod.Lex.left _ _ h')
  · simp only at h h' h''
    subst h
    subst h'
    exact Prod.Lex.right _ (Prod.Lex.right _ h'')

/-- Lexicographic order of the first `n` entries. -/
def FrontLt (n : Nat) (f g : Nat → Left) : Prop := ∃ j, j < n ∧ (∀ i, i < j → f i = g i) ∧ LeftLt (f j) (g j)

theorem frontLt_wf : ∀ n, WellFounded (FrontLt n)
  | 0 => ⟨fun f => ⟨f, fun g h => by obtain ⟨j, h, _⟩ := h; omega⟩⟩
  | n + 1 => by
    have w := (Prod.lex ⟨_, leftLt_wf⟩ ⟨_, frontLt_wf n⟩).wf
    refine Subrelation.wf ?_ (InvImage.wf (fun f : Nat → Left => (f 0, fun i => f (i + 1))) w)
    intro f g h
    obtain ⟨j, h1, h2, h3⟩ := h
    show Prod.Lex _ _ _ _
    cases j with
    | zero => exact Prod.Lex.left _ _ h3
    | succ j =>
      have e := h2 0 (by omega)
      have hr : FrontLt n (fun i => f (i + 1)) (fun i => g (i + 1)) := ⟨j, by omega, fun i hi => h2 (i + 1) (by omega), h3⟩
      simp only
      rw [e]
      exact Prod.Lex.right _ hr

/-! ### The invariant -/

/-- Points inside a phase. -/
def PC.within : PC → Bool
  | .fromOuter | .fromInner | .fromSw | .fromDead | .interOuter | .interSw | .interDead | .toOuter | .toSw | .toDead => true
  | _ => false

/-- What holds at every step of a conversion. -/
structure Alive (st : Nat → Static π) (ins : Ins π) (pc : PC) : Prop where
  queues : ∀ k, k ≤ ins.phasen → (ins.ph k).q.Ok
  base : ∀ k, 1 ≤ k → k ≤ ins.phasen → (ins.locAt k).Base (st k)
  sited : ∀ k, 1 ≤ k → k ≤ ins.phasen → (ins.locAt k).Sited (st k)
  head : ∀ k, 1 ≤ k → k ≤ ins.phasen → (st k).type = .from_ → (ins.ph (k - 1)).consumed = 0
  here : pc.within = true → 1 ≤ ins.pidx ∧ ins.pidx ≤ ins.phasen ∧ ins.loc.At (st ins.pidx) pc
  fine : pc ≠ .ub

/-- What is asked of the instance: its codecs are `Progressive` and no FROM phase follows a FROM phase. -/
structure Sane (st : Nat → Static π) (n : Nat) : Prop where
  codecs : ∀ k, 1 ≤ k → k ≤ n → Progressive (st k)
  apart : ∀ k, 1 ≤ k → k < n → (st (k + 1)).type = .from_ → (st k).type ≠ .from_

/-- Rank of a program point of the whole engine. -/
def Ins.rankOf (ins : Ins π) (pc : PC) : Nat :=
  if pc = .begin ∧ 1 ≤ ins.pidx ∧ ins.pidx ≤ ins.phasen ∧ (ins.ph (ins.pidx - 1)).q.hasNext (ins.ph ins.pidx).curr = true then 3
  else ins.loc.rank pc

/-- What is left to do. -/
def Ins.left (st : Nat → Static π) (ins : Ins π) (pc : PC) (j : Nat) : Left :=
  if j < ins.phasen then ((ins.locAt (j + 1)).todo (st (j + 1)), if j + 1 = ins.pidx then ins.loc.rank pc - 19 else 0, (ins.locAt (j + 1)).kept)
  else ((0, 0, 0, 0, 0), ins.rankOf pc, 0)

/-- One step takes something off. -/
def Less (st : Nat → Static π) (a b : Ins π × PC) : Prop := FrontLt (b.1.phasen + 1) (a.1.left st a.2) (b.1.left st b.2)

/-! ### Frames -/

/-- What a phase remembers stays valid when data is appended to its list. -/
theorem base_append {s : Static π} {l : Loc π} (hb : l.Base s) (ds : List Datum) (hq : l.prev.Ok) (q : Nat) :
    ({ l with prev := l.prev.pushAll ds, prevHeadLen := q } : Loc π).Base s := by
  obtain ⟨_, o⟩ := Queue.pushAll_ok hq ds
  unfold Loc.Base at hb ⊢
  obtain ⟨b1, b2⟩ := hb
  refine ⟨by simp only [o, List.length_append]; omega, ?_⟩
  cases ht : s.type with
  | from_ =>
    rw [ht] at b2
    simp only at b2 ⊢
    obtain ⟨c1, c2, c3⟩ := b2
    refine ⟨c1, c2, fun h => ⟨(c3 h).1, ?_⟩⟩
    rcases (c3 h).2 with k | k | k
    · exact .inl k
    · exact .inr (.inl k)
    · right; right
      rw [o]
      cases hi : l.prev.items with
      | nil => rw [hi] at k; simp at k
      | cons d r => rw [hi] at k; simpa using k
  | inter =>
    rw [ht] at b2
    simp only at b2 ⊢
    refine ⟨fun h => ?_, b2.2⟩
    obtain ⟨c1, c4⟩ := b2.1 h
    refine ⟨?_, c4⟩
    rcases c1 with ⟨c1, c2, c3⟩ | c1
    · exact .inl ⟨c1, c2, by rw [o, List.length_append]; omega⟩
    · exact .inr c1
  | to_ =>
    rw [ht] at b2
    simp only at b2 ⊢
    refine ⟨fun h => ?_, b2.2⟩
    obtain ⟨c1, c4⟩ := b2.1 h
    refine ⟨?_, c4⟩
    rcases c1 with ⟨c1, c2, c3⟩ | c1
    · exact .inl ⟨c1, c2, by rw [o, List.length_append]; omega⟩
    · exact .inr c1

/-- Neither the invariant nor the measure of a phase looks at its output. -/
theorem base_own {s : Static π} {l l' : Loc π} (h1 : l'.prev = l.prev) (h2 : ∃ q, l'.ph = { l.ph with q := q }) (hb : l.Base s) : l'.Base s := by
  obtain ⟨q, h2⟩ := h2
  unfold Loc.Base Loc.pos at hb ⊢
  rw [h1, h2]
  exact hb

theorem todo_own {s : Static π} {l l' : Loc π} (h1 : l'.prev = l.prev) (h2 : ∃ q, l'.ph = { l.ph with q := q }) : l'.todo s = l.todo s := by
  obtain ⟨q, h2⟩ := h2
  unfold Loc.todo Loc.pos
  rw [h1, h2]


theorem kept_own {l l' : Loc π} (h2 : ∃ q, l'.ph = { l.ph with q := q }) : l'.kept = l.kept := by
  obtain ⟨q, h2⟩ := h2
  unfold Loc.kept
  rw [h2]

/-! ### Steps -/

/-- A configuration and the next phase index. -/
theorem frontLt_last {n : Nat} {f g : Nat → Left} (h : ∀ i, i < n → f i = g i) (hl : LeftLt (f n) (g n)) : FrontLt (n + 1) f g :=
  ⟨n, by omega, h, hl⟩

/-- The first `k` entries agree, entry `k` is smaller. -/
theorem frontLt_at {n k : Nat} {f g : Nat → Left} (hk : k < n) (h : ∀ i, i < k → f i = g i) (hl : LeftLt (f k) (g k)) : FrontLt n f g :=
  ⟨k, hk, h, hl⟩

/-- The lists and phases after a local step. -/
theorem put_at (ins : Ins π) (l : Loc π) (hk : 1 ≤ ins.pidx) (p : Nat) : ({ ins.putLoc l with pidx := p } : Ins π).locAt ins.pidx = { l with ierr := l.ierr, oerr := l.oerr } := by
  have h1 : ¬ ins.pidx - 1 = ins.pidx := by omega
  have h2 : ins.pidx - 1 + 1 = ins.pidx := by omega
  simp [Ins.locAt, Ins.putLoc, h1, h2]

theorem put_next (ins : Ins π) (l : Loc π) (p : Nat) : ({ ins.putLoc l with pidx := p } : Ins π).locAt (ins.pidx + 1) =
    { prev := l.ph.q, prevHeadLen := l.ph.consumed, ph := ins.ph (ins.pidx + 1), ierr := l.ierr, oerr := l.oerr } := by
  have h : ¬ ins.pidx + 1 + 1 = ins.pidx := by omega
  simp [Ins.locAt, Ins.putLoc, h]

theorem put_before (ins : Ins π) (l : Loc π) (p j : Nat) (h1 : 1 ≤ j) (h2 : j < ins.pidx) (hh : l.prevHeadLen = ins.loc.prevHeadLen) :
    (({ ins.putLoc l with pidx := p } : Ins π).locAt j).prev = (ins.locAt j).prev ∧
    ∃ q, (({ ins.putLoc l with pidx := p } : Ins π).locAt j).ph = { (ins.locAt j).ph with q := q } := by
  have a1 : ¬ j - 1 = ins.pidx := by omega
  have a2 : ¬ j - 1 + 1 = ins.pidx := by omega
  have a3 : ¬ j = ins.pidx := by omega
  refine ⟨by simp [Ins.locAt, Ins.putLoc, a1, a2], ?_⟩
  by_cases h : j + 1 = ins.pidx
  · refine ⟨l.prev, ?_⟩
    have e : ins.pidx - 1 = j := by omega
    simp only [Ins.loc, e] at hh
    simp [Ins.locAt, Ins.putLoc, a3, h, hh]
  · exact ⟨(ins.ph j).q, by simp [Ins.locAt, Ins.putLoc, a3, h]⟩

theorem put_after (ins : Ins π) (l : Loc π) (p j : Nat) (h2 : ins.pidx + 1 < j) :
    (({ ins.putLoc l with pidx := p } : Ins π).locAt j).prev = (ins.locAt j).prev ∧
    (({ ins.putLoc l with pidx := p } : Ins π).locAt j).ph = (ins.locAt j).ph := by
  have a1 : ¬ j - 1 = ins.pidx := by omega
  have a2 : ¬ j - 1 + 1 = ins.pidx := by omega
  have a3 : ¬ j = ins.pidx := by omega
  have a4 : ¬ j + 1 = ins.pidx := by omega
  simp [Ins.locAt, Ins.putLoc, a1, a2, a3, a4]

/-- The invariant after a local step, wherever control goes. -/
theorem alive_put {st : Nat → Static π} {ins : Ins π} {pc pc' : PC} {l : Loc π} {r : Nat} {c : Ctl} {p : Nat} (hs : Sane st ins.phasen) (h : Alive st ins pc)
    (h1 : 1 ≤ ins.pidx) (h2 : ins.pidx ≤ ins.phasen) (hst : ins.loc.Steps (st ins.pidx) r l c) (hsl : l.Sited (st ins.pidx))
    (hpc : pc'.within = true → p = ins.pidx ∧ l.At (st ins.pidx) pc') (hub : pc' ≠ .ub) :
    Alive st { ins.putLoc l with pidx := p } pc' := by
  obtain ⟨ds, hds⟩ := hst.queue
  have hqk : ins.loc.ph.q.Ok := h.queues _ h2
  have hql : l.ph.q.Ok := by rw [hds]; exact (Queue.pushAll_ok hqk ds).1
  refine ⟨?_, ?_, ?_, ?_, ?_, hub⟩
  · intro k hk
    show (if k = ins.pidx then l.ph else if k + 1 = ins.pidx then { ins.ph k with q := l.prev, consumed := l.prevHeadLen } else ins.ph k).q.Ok
    split
    · exact hql
    · split
      · exact hst.prev
      · exact h.queues k hk
  · intro k hk1 hk2
    rcases Nat.lt_trichotomy k ins.pidx with hlt | heq | hgt
    · obtain ⟨e1, e2⟩ := put_before ins l p k hk1 hlt hst.head
      exact base_own e1 e2 (h.base k hk1 hk2)
    · subst heq
      rw [put_at ins l h1]
      exact hst.base
    · by_cases hn : k = ins.pidx + 1
      · subst hn
        rw [put_next]
        rw [hds]
        have hb := h.base (ins.pidx + 1) (by omega) hk2
        have := base_append hb ds (by exact hqk) l.ph.consumed
        exact base_own (l := { ins.locAt (ins.pidx + 1) with prev := (ins.locAt (ins.pidx + 1)).prev.pushAll ds, prevHeadLen := l.ph.consumed }) rfl ⟨_, rfl⟩ this
      · obtain ⟨e1, e2⟩ := put_after ins l p k (by omega)
        exact base_own e1 ⟨_, e2⟩ (h.base k hk1 hk2)
  · intro k hk1 hk2
    rcases Nat.lt_trichotomy k ins.pidx with hlt | heq | hgt
    · obtain ⟨e1, q, e2⟩ := put_before ins l p k hk1 hlt hst.head
      exact sited_keep (h.sited k hk1 hk2) (by rw [e2]) (by rw [e2]) (fun hl => by rw [e2] at hl ⊢; exact ⟨hl, rfl⟩)
    · subst heq
      rw [put_at ins l h1]
      exact hsl
    · by_cases hn : k = ins.pidx + 1
      · subst hn
        rw [put_next]
        exact sited_keep (h.sited _ hk1 hk2) rfl rfl (fun hl => ⟨hl, rfl⟩)
      · obtain ⟨e1, e2⟩ := put_after ins l p k (by omega)
        exact sited_keep (h.sited k hk1 hk2) (by rw [e2]) (by rw [e2]) (fun hl => by rw [e2] at hl ⊢; exact ⟨hl, rfl⟩)
  · intro k hk1 hk2 ht
    show (if k - 1 = ins.pidx then l.ph else if k - 1 + 1 = ins.pidx then { ins.ph (k - 1) with q := l.prev, consumed := l.prevHeadLen } else ins.ph (k - 1)).consumed = 0
    have hh := h.head k hk1 hk2 ht
    split
    · rename_i hk
      have hk' : k = ins.pidx + 1 := by omega
      subst hk'
      rw [hst.taken (hs.apart ins.pidx h1 (by have : ins.pidx + 1 ≤ ins.phasen := hk2; omega) ht)]
      exact hh
    · split
      · rename_i hk
        rw [hst.head]
        have : k = ins.pidx := by omega
        rw [this] at hh
        exact hh
      · exact hh
  · intro hin
    obtain ⟨e, ha⟩ := hpc hin
    subst e
    refine ⟨h1, h2, ?_⟩
    show (({ ins.putLoc l with pidx := ins.pidx } : Ins π).locAt ins.pidx).At (st ins.pidx) pc'
    rw [put_at ins l h1]
    exact ha

theorem rankOf_le (ins : Ins π) (pc : PC) : ins.rankOf pc ≤ ins.loc.rank pc := by
  unfold Ins.rankOf
  split
  · rename_i h; rw [h.1]; simp [Loc.rank]
  · exact Nat.le_refl _

theorem rankOf_inside (ins : Ins π) {pc : PC} (h : pc ≠ .begin) : ins.rankOf pc = ins.loc.rank pc := by
  unfold Ins.rankOf
  rw [if_neg (by rintro ⟨k, _⟩; exact h k)]

/-- The measure after a local step. -/
theorem less_put {st : Nat → Static π} {ins : Ins π} {pc pc' : PC} {l : Loc π} {c : Ctl} {p : Nat}
    (h1 : 1 ≤ ins.pidx) (h2 : ins.pidx ≤ ins.phasen) (hpb : pc ≠ .begin) (hst : ins.loc.Steps (st ins.pidx) (ins.loc.rank pc) l c)
    (hp : (c = .goto pc' ∧ p = ins.pidx) ∨ (c = .nextBegin ∧ pc' = .begin ∧ p = ins.pidx + 1)) :
    Less st ({ ins.putLoc l with pidx := p }, pc') (ins, pc) := by
  unfold Less
  have before : ∀ i, i < ins.pidx - 1 → (({ ins.putLoc l with pidx := p } : Ins π).left st pc' i) = ins.left st pc i := by
    intro i hi
    obtain ⟨e1, e2⟩ := put_before ins l p (i + 1) (by omega) (by omega) hst.head
    unfold Ins.left
    have k1 : i < ins.phasen := by omega
    have k2 : ¬ i + 1 = ins.pidx := by omega
    have k3 : ¬ i + 1 = p := by rcases hp with hp | hp <;> omega
    rw [if_pos k1, if_pos (by exact k1), if_neg k2, if_neg (by exact k3), todo_own e1 e2, kept_own e2]
  have was : ins.left st pc (ins.pidx - 1) = (ins.loc.todo (st ins.pidx), ins.loc.rank pc - 19, ins.loc.kept) := by
    unfold Ins.left
    have e : ins.pidx - 1 + 1 = ins.pidx := by omega
    rw [if_pos (by omega), e, if_pos rfl, loc_eq]
  have own : (({ ins.putLoc l with pidx := p } : Ins π).left st pc' (ins.pidx - 1)) = (l.todo (st ins.pidx), if ins.pidx = p then l.rank pc' - 19 else 0, l.kept) := by
    unfold Ins.left
    have e : ins.pidx - 1 + 1 = ins.pidx := by omega
    rw [if_pos (by show ins.pidx - 1 < ins.phasen; omega), e, put_at ins l h1]
    congr 2
    by_cases hpp : ins.pidx = p
    · rw [if_pos (by exact hpp), if_pos hpp]
      have : ({ ins.putLoc l with pidx := p } : Ins π).loc = ({ ins.putLoc l with pidx := p } : Ins π).locAt ins.pidx := by rw [loc_eq, hpp]
      rw [this, put_at ins l h1]
    · rw [if_neg (by exact hpp), if_neg hpp]
  have at1 : LeftLt (l.todo (st ins.pidx), if ins.pidx = p then l.rank pc' - 19 else 0, l.kept) (ins.loc.todo (st ins.pidx), ins.loc.rank pc - 19, ins.loc.kept) →
      FrontLt (ins.phasen + 1) (({ ins.putLoc l with pidx := p } : Ins π).left st pc') (ins.left st pc) := by
    intro hlt
    refine frontLt_at (k := ins.pidx - 1) (by omega) before ?_
    rw [own, was]
    exact hlt
  have crank : (if ins.pidx = p then l.rank pc' - 19 else 0) ≤ l.ctlRank c - 19 := by
    rcases hp with ⟨rfl, rfl⟩ | ⟨rfl, rfl, rfl⟩
    · simp [Loc.ctlRank]
    · simp
  rcases hst.less with hlt | ⟨heq, hr, hq⟩ | ⟨heq, hr1, hr2, hk⟩
  · exact at1 (.inl hlt)
  · rcases hq with ⟨hq, hkk⟩ | hq
    · by_cases hx : (if ins.pidx = p then l.rank pc' - 19 else 0) < ins.loc.rank pc - 19
      · exact at1 (.inr ⟨heq, .inl hx⟩)
      · -- nothing but the program point changes
        refine frontLt_last ?_ ?_
        · intro i hi
          rcases Nat.lt_trichotomy (i + 1) ins.pidx with hlt | he | hgt
          · exact before i (by omega)
          · have hi' : i = ins.pidx - 1 := by omega
            subst hi'
            show _ = ins.left st pc (ins.pidx - 1)
            rw [own, was]
            refine Prod.ext heq (Prod.ext ?_ hkk)
            show (if ins.pidx = p then l.rank pc' - 19 else 0) = ins.loc.rank pc - 19
            omega
          · have e : (∃ q, (({ ins.putLoc l with pidx := p } : Ins π).locAt (i + 1)).ph = { (ins.locAt (i + 1)).ph with q := q }) ∧
                (({ ins.putLoc l with pidx := p } : Ins π).locAt (i + 1)).prev = (ins.locAt (i + 1)).prev := by
              by_cases hn : i + 1 = ins.pidx + 1
              · rw [hn, put_next]
                exact ⟨⟨_, rfl⟩, by simp [Ins.locAt, hq, Ins.loc]⟩
              · obtain ⟨e1, e2⟩ := put_after ins l p (i + 1) (by omega)
                exact ⟨⟨_, e2⟩, e1⟩
            unfold Ins.left
            rw [if_pos (by exact hi), if_pos hi, if_neg (show ¬ i + 1 = ins.pidx by omega)]
            refine Prod.ext (todo_own e.2 e.1) (Prod.ext ?_ (kept_own e.1))
            simp only
            split
            · rename_i hpp
              rcases hp with ⟨_, rfl⟩ | ⟨_, rfl, rfl⟩
              · omega
              · simp [Loc.rank]
            · rfl
        · unfold Ins.left
          rw [if_neg (by show ¬ ins.phasen < ins.phasen; omega), if_neg (by omega)]
          right
          refine ⟨rfl, .inl ?_⟩
          simp only
          have hle := rankOf_le ({ ins.putLoc l with pidx := p } : Ins π) pc'
          rw [rankOf_inside ins hpb]
          refine Nat.lt_of_le_of_lt hle ?_
          rcases hp with ⟨rfl, rfl⟩ | ⟨rfl, rfl, rfl⟩
          · have : ({ ins.putLoc l with pidx := ins.pidx } : Ins π).loc = l := loc_putLoc ins l h1
            rw [this]
            exact hr
          · exact hr
    · exact at1 (.inr ⟨heq, .inl (by simp only; omega)⟩)
  · exact at1 (.inr ⟨heq, .inr ⟨by simp only; omega, hk⟩⟩)

theorem back_found {ins : Ins π} {k : Nat} : ∀ {n : Nat}, ins.findBack n = some k → 1 ≤ k ∧ k ≤ n ∧ (ins.ph (k - 1)).q.hasNext (ins.ph k).curr = true
  | 0, h => by simp [Ins.findBack] at h
  | n + 1, h => by
    simp only [Ins.findBack] at h
    split at h
    · rename_i hn
      simp only [Option.some.injEq] at h
      subst h
      exact ⟨by omega, by omega, by simpa using hn⟩
    · obtain ⟨h1, h2, h3⟩ := back_found h
      exact ⟨h1, by omega, h3⟩

theorem pending_found {ins : Ins π} {k : Nat} : ∀ {n j : Nat}, ins.findPending j n = some k → j ≤ k ∧ k < j + n ∧ (ins.ph k).fPending = true
  | 0, j, h => by simp [Ins.findPending] at h
  | n + 1, j, h => by
    simp only [Ins.findPending] at h
    split at h
    · rename_i hn
      simp only [Option.some.injEq] at h
      subst h
      exact ⟨by omega, by omega, hn⟩
    · obtain ⟨h1, h2, h3⟩ := pending_found h
      exact ⟨by omega, by omega, h3⟩

/-- Only the program point and the phase index change, outside the phases. -/
theorem less_move {st : Nat → Static π} {ins : Ins π} {pc pc' : PC} {p : Nat} (h1 : ins.loc.rank pc ≤ 19) (h2 : (({ ins with pidx := p } : Ins π).loc).rank pc' ≤ 19)
    (hr : ({ ins with pidx := p } : Ins π).rankOf pc' < ins.rankOf pc) : Less st ({ ins with pidx := p }, pc') (ins, pc) := by
  unfold Less
  refine frontLt_last ?_ ?_
  · intro i hi
    unfold Ins.left
    rw [if_pos (by exact hi), if_pos hi]
    refine Prod.ext rfl (Prod.ext ?_ rfl)
    simp only
    split <;> split <;> omega
  · unfold Ins.left
    rw [if_neg (by show ¬ ins.phasen < ins.phasen; omega), if_neg (by simp)]
    exact .inr ⟨rfl, .inl hr⟩

theorem alive_move {st : Nat → Static π} {ins : Ins π} {pc pc' : PC} {p : Nat} (h : Alive st ins pc)
    (hpc : pc'.within = true → 1 ≤ p ∧ p ≤ ins.phasen ∧ (ins.locAt p).At (st p) pc') (hub : pc' ≠ .ub) : Alive st { ins with pidx := p } pc' :=
  ⟨h.queues, h.base, h.sited, h.head, hpc, hub⟩

/-- Every step of the engine keeps the invariant and takes something off. -/
theorem alive_step {st : Nat → Static π} {ins : Ins π} {pc : PC} (hs : Sane st ins.phasen) (h : Alive st ins pc) (hd : pc ≠ .done) :
    Alive st (step st (ins, pc)).1 (step st (ins, pc)).2 ∧ (step st (ins, pc)).1.phasen = ins.phasen ∧ Less st (step st (ins, pc)) (ins, pc) := by
  have loc : pc.within = true → step st (ins, pc) =
      (match (localStep (st ins.pidx) pc ins.loc).2 with
      | .goto pc' => (ins.putLoc (localStep (st ins.pidx) pc ins.loc).1, pc')
      | .nextBegin => ({ ins.putLoc (localStep (st ins.pidx) pc ins.loc).1 with pidx := ins.pidx + 1 }, .begin)) := by
    intro hi
    cases pc <;> first | rfl | simp [PC.within] at hi
  by_cases hin : pc.within = true
  · obtain ⟨h1, h2, ha⟩ := h.here hin
    have hb := h.base _ h1 h2
    have hpb : pc ≠ .begin := by rintro rfl; simp [PC.within] at hin
    have hpl : pc ≠ .leave := by rintro rfl; simp [PC.within] at hin
    have hsi := h.sited _ h1 h2
    have hsl := sited_local (hs.codecs _ h1 h2) (l := ins.loc) (pc := pc) hb hsi ha hpb hpl
    have hst := steps_local (hs.codecs _ h1 h2) (l := ins.loc) (pc := pc) hb hsi (h.queues (ins.pidx - 1) (by omega)) (fun ht => h.head _ h1 h2 ht) ha hpb hpl
    rw [loc hin]
    generalize localStep (st ins.pidx) pc ins.loc = r at hst hsl ⊢
    obtain ⟨l, c⟩ := r
    simp only at hst hsl ⊢
    cases c with
    | goto pc' =>
      have hg : l.At (st ins.pidx) pc' := hst.goal
      refine ⟨alive_put (p := ins.pidx) hs h h1 h2 hst hsl (fun _ => ⟨rfl, hg⟩) ?_, rfl, less_put (p := ins.pidx) h1 h2 hpb hst (.inl ⟨rfl, rfl⟩)⟩
      rintro rfl
      exact hg
    | nextBegin =>
      exact ⟨alive_put hs h h1 h2 hst hsl (fun hi => by simp [PC.within] at hi) (by simp), rfl, less_put h1 h2 hpb hst (.inr ⟨rfl, rfl, rfl⟩)⟩
  · cases pc with
    | done => exact absurd rfl hd
    | ub => exact absurd rfl h.fine
    | begin =>
      simp only [step]
      split
      · rename_i hr
        have hat : ∀ l : Loc π, l.At (st ins.pidx) (st ins.pidx).type.outer := by
          intro l
          cases ht : (st ins.pidx).type <;> simp [PType.outer, Loc.At, ht]
        have hro : ∀ l : Loc π, l.rank (st ins.pidx).type.outer = if l.prev.hasNext l.ph.curr then 2 else 7 := by
          intro l
          cases (st ins.pidx).type <;> rfl
        have hne : (st ins.pidx).type.outer ≠ .begin := by cases (st ins.pidx).type <;> simp [PType.outer]
        refine ⟨alive_move (p := ins.pidx) h (fun _ => ⟨hr.1, hr.2, hat _⟩) (by cases (st ins.pidx).type <;> simp [PType.outer]), rfl, ?_⟩
        refine less_move (p := ins.pidx) (by simp [Loc.rank]) ?_ ?_
        · rw [hro]; split <;> omega
        · rw [rankOf_inside _ hne, hro]
          unfold Ins.rankOf
          by_cases hn : (ins.ph (ins.pidx - 1)).q.hasNext (ins.ph ins.pidx).curr = true
          · rw [if_pos (by exact hn), if_pos ⟨rfl, hr.1, hr.2, hn⟩]; omega
          · rw [if_neg (by exact hn), if_neg (by rintro ⟨_, _, _, k⟩; exact hn k)]; simp [Loc.rank]
      · rename_i hr
        refine ⟨alive_move (p := ins.pidx) h (fun hi => by simp [PC.within] at hi) (by simp), rfl, ?_⟩
        refine less_move (p := ins.pidx) (by simp [Loc.rank]) (by simp [Loc.rank]) ?_
        rw [rankOf_inside _ (by simp)]
        unfold Ins.rankOf
        rw [if_neg (by rintro ⟨_, k1, k2, _⟩; exact hr ⟨k1, k2⟩)]
        simp [Loc.rank]
    | leave =>
      refine ⟨alive_move (p := ins.pidx + 1) h (fun hi => by simp [step, PC.within] at hi) (by simp [step]), rfl, ?_⟩
      refine less_move (p := ins.pidx + 1) (by simp [Loc.rank]) (by simp [Loc.rank]) ?_
      rw [rankOf_inside _ (by simp), rankOf_inside _ (by simp)]
      simp [Loc.rank]
    | checkBack =>
      simp only [step]
      cases hf : ins.findBack ins.phasen with
      | some k =>
        obtain ⟨f1, f2, f3⟩ := back_found hf
        simp only
        refine ⟨alive_move (p := k) h (fun hi => by simp [PC.within] at hi) (by simp), by trivial, ?_⟩
        refine less_move (p := k) (by simp [Loc.rank]) (by simp [Loc.rank]) ?_
        rw [rankOf_inside ins (by simp)]
        unfold Ins.rankOf
        rw [if_pos ⟨rfl, f1, f2, f3⟩]
        simp [Loc.rank]
      | none =>
        simp only
        refine ⟨alive_move (p := 0) h (fun hi => by simp [PC.within] at hi) (by simp), by trivial, ?_⟩
        refine less_move (p := 0) (by simp [Loc.rank]) (by simp [Loc.rank]) ?_
        rw [rankOf_inside _ (by simp), rankOf_inside _ (by simp)]
        simp [Loc.rank]
    | flushScan =>
      have fin : ∀ p, Alive st { ins with pidx := p } .done ∧ ({ ins with pidx := p } : Ins π).phasen = ins.phasen ∧ Less st ({ ins with pidx := p }, .done) (ins, .flushScan) := by
        intro p
        refine ⟨alive_move h (fun hi => by simp [PC.within] at hi) (by simp), rfl, ?_⟩
        refine less_move (by simp [Loc.rank]) (by simp [Loc.rank]) ?_
        rw [rankOf_inside _ (by simp), rankOf_inside _ (by simp)]
        simp [Loc.rank]
      simp only [step]
      split
      · cases hf : ins.findPending 1 ins.phasen with
        | some k =>
          obtain ⟨f1, f2, f3⟩ := pending_found hf
          simp only
          have hk : k ≤ ins.phasen := by omega
          have hne : (st k).type.dead ≠ .begin := by cases (st k).type <;> simp [PType.dead]
          have hr0 : ∀ l : Loc π, l.rank (st k).type.dead = 0 := by intro l; cases (st k).type <;> rfl
          refine ⟨alive_move (p := k) h (fun _ => ⟨f1, hk, ?_⟩) (by cases (st k).type <;> simp [PType.dead]), by trivial, ?_⟩
          · have hb := (h.base k f1 hk).2
            cases ht : (st k).type with
            | from_ =>
              rw [ht] at hb
              obtain ⟨_, _, b3⟩ := hb
              obtain ⟨c1, c2⟩ := b3 f3
              exact ⟨ht, c1, c2⟩
            | inter => rw [ht] at hb; exact ⟨ht, hb.2 f3⟩
            | to_ => rw [ht] at hb; exact ⟨ht, hb.2 f3⟩
          · refine less_move (p := k) (by simp [Loc.rank]) (by rw [hr0]; omega) ?_
            rw [rankOf_inside _ hne, rankOf_inside _ (by simp), hr0]
            simp [Loc.rank]
        | none => exact fin _
      · exact fin ins.pidx
    | _ => simp [PC.within] at hin

/-- From every configuration with the invariant the engine comes to its end. -/
theorem alive_ends {st : Nat → Static π} (n : Nat) (hs : Sane st n) (c : Ins π × PC) (hn : c.1.phasen = n) (h : Alive st c.1 c.2) :
    ∃ m ins, run st m c = (ins, .done) ∧ ins.phasen = n ∧ Alive st ins .done := by
  have w : WellFounded (fun a b : Ins π × PC => FrontLt (n + 1) (a.1.left st a.2) (b.1.left st b.2)) :=
    InvImage.wf (fun c : Ins π × PC => c.1.left st c.2) (frontLt_wf (n + 1))
  induction c using w.induction with
  | h c ih =>
    obtain ⟨ins, pc⟩ := c
    by_cases hd : pc = .done
    · subst hd
      exact ⟨0, ins, rfl, hn, h⟩
    · simp only at hn h
      subst hn
      obtain ⟨a1, a2, a3⟩ := alive_step hs h hd
      obtain ⟨m, ins', e, k1, k2⟩ := ih (step st (ins, pc)) a3 a2 a1
      exact ⟨m + 1, ins', e, k1, k2⟩

/-! ### Calls -/

theorem sited_own {s : Static π} {l l' : Loc π} (h : l.Sited s) (e : ∃ q, l'.ph = { l.ph with q := q }) : l'.Sited s := by
  obtain ⟨q, e⟩ := e
  exact sited_keep h (by rw [e]) (by rw [e]) (fun hl => by rw [e] at hl ⊢; exact ⟨hl, rfl⟩)

theorem alive_start {st : Nat → Static π} {ins : Ins π} (h : Alive st ins .done) (input : Option Datum) (flush : Bool) :
    Alive st (ins.start (input.map (fun x => (x, []))) flush).1 (ins.start (input.map (fun x => (x, []))) flush).2 := by
  cases input with
  | none => exact ⟨h.queues, h.base, h.sited, h.head, fun hi => by simp [Ins.start, PC.within] at hi, by simp [Ins.start]⟩
  | some d =>
    have hq0 := h.queues 0 (Nat.zero_le _)
    have ph0 : ((ins.start ((some d).map (fun x => (x, []))) flush).1.ph 0) = { ins.ph 0 with q := (ins.ph 0).q.pushAll [d] } := rfl
    have phs : ∀ k, k ≠ 0 → ((ins.start ((some d).map (fun x => (x, []))) flush).1.ph k) = ins.ph k := by
      intro k hk
      simp [Ins.start, Ins.feed, hk]
    refine ⟨?_, ?_, ?_, ?_, fun hi => by simp [Ins.start, PC.within] at hi, by simp [Ins.start]⟩
    · intro k hk
      by_cases h0 : k = 0
      · subst h0; rw [ph0]; exact (Queue.pushAll_ok hq0 [d]).1
      · rw [phs k h0]; exact h.queues k hk
    · intro k hk1 hk2
      have hb := h.base k hk1 hk2
      by_cases h1 : k = 1
      · subst h1
        have := base_append hb [d] hq0 (ins.ph 0).consumed
        exact base_own rfl ⟨_, rfl⟩ this
      · refine base_own (l := ins.locAt k) ?_ ⟨(ins.ph k).q, ?_⟩ hb
        · unfold Ins.locAt; rw [phs (k - 1) (by omega)]
        · show (ins.start ((some d).map (fun x => (x, []))) flush).1.ph k = _
          exact (phs k (by omega)).trans rfl
    · intro k hk1 hk2
      exact sited_own (h.sited k hk1 hk2) ⟨(ins.ph k).q, (phs k (by omega)).trans rfl⟩
    · intro k hk1 hk2 ht
      have := h.head k hk1 hk2 ht
      by_cases h1 : k = 1
      · subst h1; exact this
      · rw [phs (k - 1) (by omega)]; exact this

theorem copyFit_ok : ∀ (ds : List Datum) (room : Nat), (copyFit ds ds.length room).2.2 = (copyFit ds ds.length room).2.1.length
  | [], _ => rfl
  | d :: ds, room => by
    simp only [copyFit]
    split
    · exact copyFit_ok ds _
    · rfl

theorem deliver_ok {q : Queue} (h : q.Ok) (m : Mode) (n : Nat) : (deliver m q n).2.Ok := by
  unfold Queue.Ok at h ⊢
  cases m with
  | hold => exact h
  | automalloc r => rfl
  | premalloced cap =>
    cases cap with
    | none => exact h
    | some cap =>
      simp only [deliver]
      rw [h]
      exact copyFit_ok _ _
  | file => rfl
  | fd => rfl
  | null => rfl

theorem alive_last {st : Nat → Static π} {ins : Ins π} (h : Alive st ins .done) {q : Queue} (hq : q.Ok) : Alive st (ins.setLast q) .done := by
  have phs : ∀ k, k ≠ ins.phasen → (ins.setLast q).ph k = ins.ph k := by
    intro k hk
    simp [Ins.setLast, hk]
  have phl : (ins.setLast q).ph ins.phasen = { ins.ph ins.phasen with q := q } := by simp [Ins.setLast]
  have own : ∀ k, ∃ q', (ins.setLast q).ph k = { ins.ph k with q := q' } := by
    intro k
    by_cases hk : k = ins.phasen
    · subst hk; exact ⟨q, phl⟩
    · exact ⟨(ins.ph k).q, (phs k hk).trans rfl⟩
  refine ⟨?_, ?_, ?_, ?_, fun hi => by simp [PC.within] at hi, by simp⟩
  · intro k hk
    by_cases h0 : k = ins.phasen
    · subst h0; rw [phl]; exact hq
    · rw [phs k h0]; exact h.queues k hk
  · intro k hk1 hk2
    have hk2' : k ≤ ins.phasen := hk2
    refine base_own (l := ins.locAt k) ?_ (own k) (h.base k hk1 hk2)
    unfold Ins.locAt
    rw [phs (k - 1) (by omega)]
  · intro k hk1 hk2
    exact sited_own (h.sited k hk1 hk2) (own k)
  · intro k hk1 hk2 ht
    obtain ⟨q', e⟩ := own (k - 1)
    rw [e]
    exact h.head k hk1 hk2 ht

theorem alive_init (st : Nat → Static π) (ins : Ins π) (initPriv : Nat → Nat → π → π) : Alive st (ins.init st initPriv) .done := by
  have ph : ∀ k, k ≤ ins.phasen → ∃ p : Ph π, (ins.init st initPriv).ph k = p ∧ p.q = Queue.empty ∧ p.consumed = 0 ∧ p.fMatch = false ∧ p.fPending = false ∧
      p.fLoop = false ∧ (k ≠ 0 → p.curr = 0 ∧ p.index = 0 ∧ p.st = 0) := by
    intro k hk
    refine ⟨_, rfl, ?_⟩
    simp only [Ins.init]
    rw [if_pos hk]
    split
    · rename_i h0; exact ⟨rfl, rfl, rfl, rfl, rfl, fun h => absurd h0 h⟩
    · exact ⟨rfl, rfl, rfl, rfl, rfl, fun _ => ⟨rfl, rfl, rfl⟩⟩
  refine ⟨?_, ?_, ?_, ?_, fun hi => by simp [PC.within] at hi, by simp⟩
  · intro k hk
    obtain ⟨p, e, hq, _⟩ := ph k hk
    rw [e, hq]; rfl
  · intro k hk1 hk2
    obtain ⟨p, e, hq, hc, hm, hp, hl, h0⟩ := ph k hk2
    obtain ⟨hcu, hix, hst⟩ := h0 (by omega)
    unfold Loc.Base Ins.locAt
    simp only [e, hm, hp, hcu]
    refine ⟨Nat.zero_le _, ?_⟩
    split <;> simp
  · intro k hk1 hk2
    obtain ⟨p, e, hq, hc, hm, hp, hl, h0⟩ := ph k hk2
    obtain ⟨hcu, hix, hst⟩ := h0 (by omega)
    unfold Loc.Sited Ins.locAt
    simp only [e, hst, hl, hix]
    exact ⟨Nat.zero_le _, visited_zero _, by simp⟩
  · intro k hk1 hk2 ht
    have hk2' : k ≤ ins.phasen := hk2
    obtain ⟨p, e, hq, hc, _⟩ := ph (k - 1) (by omega)
    rw [e, hc]

theorem alive_session {st : Nat → Static π} (n : Nat) (hs : Sane st n) : ∀ (args : List Arg) (ins : Ins π), ins.phasen = n → Alive st ins .done →
    ∃ ds ins', Session st ins args ds ins' ∧ ins'.phasen = n ∧ Alive st ins' .done
  | [], ins, hn, h => ⟨[], ins, .nil ins, hn, h⟩
  | a :: args, ins, hn, h => by
    have h1 := alive_start h a.input a.flush
    obtain ⟨m, i1, e, hn1, h2⟩ := alive_ends n hs (ins.start (a.input.map (fun x => (x, []))) a.flush)
      (by cases a.input <;> exact hn) h1
    have h3 := alive_last h2 (deliver_ok (h2.queues _ (Nat.le_refl _)) a.mode (i1.ph i1.phasen).consumed)
    obtain ⟨ds, ins', hses, k1, k2⟩ := alive_session n hs args (i1.setLast (deliver a.mode (i1.ph i1.phasen).q (i1.ph i1.phasen).consumed).2) hn1 h3
    exact ⟨_, ins', .cons ⟨m, i1, e, rfl, rfl⟩ hses, k1, k2⟩

/-! ### Codecs -/

theorem orderly_sane {st : Nat → Static π} {n : Nat} (h : Orderly st n) : Sane st n := by
  refine ⟨fun k h1 h2 => ?_, h.apart⟩
  have p := h.codecs k h1 h2
  refine ⟨fun j o hj => (p j hj).kinds o, fun j o hj => (p j hj).data o, ?_, ?_⟩
  · intro l hi hv hc
    exact (p l.ph.index hi).conv ⟨_, hv, hc⟩ l
  · intro f hl hf
    exact (p 0 (Nat.zero_le _)).flush hl f hf

/-- A table whose rules have data, if longer ones begin with them. -/
theorem proper_rules {t : PType} {lone : Prop} {c : Codec π} {S : Rules Nat (List Datum)} (hr : Represents c S)
    (hd : ∀ p b, lookup S p = some b → extendable S p = true → b ≠ [] ∨ lone) (hf : lone → c.flush = none) :
    Proper t lone c := by
  have kind : ∀ o, Visited c o → c.status o = .deadend ∨ ∃ p, walk c 0 p = some o ∧ c.status o = nodeStatus S p := by
    rintro o ⟨u, hu⟩
    by_cases h0 : u = []
    · subst h0
      simp only [walk, Option.some.injEq] at hu
      subst hu
      exact .inl hr.root
    · exact .inr ⟨u, hu, hr.status u o h0 hu⟩
  have mem : ∀ o, Visited c o → c.status o ∈ [Status.cont, .deadend, .match_, .submatch] := by
    intro o ho
    rcases kind o ho with h | ⟨p, _, h⟩
    · simp [h]
    · rw [h]
      unfold nodeStatus
      split
      · simp
      · split <;> simp
  refine ⟨?_, ?_, ?_, ?_⟩
  · intro o ho
    have := mem o ho
    simp only [List.mem_cons, List.not_mem_nil, or_false] at this ⊢
    rcases this with h | h | h | h <;> simp [h]
  · intro o ho hs
    rcases kind o ho with h | ⟨p, hp, h⟩
    · rw [h] at hs; simp at hs
    · rw [h] at hs
      unfold nodeStatus at hs
      cases hl : lookup S p with
      | none => rw [hl] at hs; simp at hs
      | some b =>
        rw [hl] at hs
        rw [hr.data p o b hp hl]
        refine hd p b hl ?_
        cases he : extendable S p with
        | true => rfl
        | false => simp [he] at hs
  · rintro ⟨o, ho, hc⟩
    have := mem o ho
    simp only [List.mem_cons, List.not_mem_nil, or_false] at this
    rcases hc with hc | hc <;> rw [hc] at this <;> simp at this
  · intro hl f h
    rw [hf hl] at h
    simp at h

/-- A table of rules that have data. -/
theorem proper_table {t : PType} {lone : Prop} {c : Codec π} {S : Rules Nat (List Datum)} (hr : Represents c S) (hd : ∀ r ∈ S, r.2 ≠ []) (hf : c.flush = none) :
    Proper t lone c :=
  proper_rules hr (fun _ _ hl _ => .inl (hd _ (Verif.Spec.lookup_mem hl))) (fun _ => hf)

theorem walk_any {conv : Loc π → Loc π} {flush : Option (Loc π → Loc π)} {o : Nat} (h : Visited (anyByte conv flush) o) : o = 0 ∨ o = 1 := by
  obtain ⟨u, h⟩ := h
  have : ∀ (u : List Nat) (o o' : Nat), o = 0 ∨ o = 1 → walk (anyByte conv flush) o u = some o' → o' = 0 ∨ o' = 1 := by
    intro u
    induction u with
    | nil => intro o o' ho h; simp only [walk, Option.some.injEq] at h; omega
    | cons c u ih =>
      intro o o' ho h
      simp only [walk] at h
      split at h
      · simp at h
      · refine ih _ o' ?_ h
        simp only [anyByte]
        split <;> omega
  exact this u 0 o (.inl rfl) h

/-- A codec with the table `* ?`. -/
theorem proper_any {t : PType} {lone : Prop} {conv : Loc π → Loc π} {flush : Option (Loc π → Loc π)} (hc : ConvOk t lone conv)
    (hf : lone → ∀ f, flush = some f → ∀ l : Loc π, ∃ ds priv status, f l = { l with ph := { l.ph with q := l.ph.q.pushAll ds, priv := priv, status := status } }) :
    Proper t lone (anyByte conv flush) := by
  refine ⟨?_, ?_, fun _ => hc, hf⟩
  · intro o ho
    rcases walk_any ho with rfl | rfl <;> simp [anyByte]
  · intro o ho hs
    rcases walk_any ho with rfl | rfl <;> simp [anyByte] at hs

/-- A codec with the table `01* ?`. -/
theorem proper_uni {t : PType} {lone : Prop} {conv : Loc π → Loc π} (hc : ConvOk t lone conv) : Proper t lone (uniPrefix conv) := by
  refine ⟨?_, ?_, fun _ => hc, fun _ f h => by simp [uniPrefix] at h⟩
  · intro o _
    simp only [uniPrefix]
    split
    · simp
    · split <;> simp
  · intro o _ hs
    simp only [uniPrefix] at hs
    split at hs
    · simp at hs
    · split at hs <;> simp at hs

/-- A codec that looks at one datum. -/
theorem convOk_handler {t : PType} {lone : Prop} (h : Handler π) (ht : t ≠ .from_) (hh : (∃ x d y o, h.act x d = some (y, o, true)) → lone) : ConvOk t lone h.conv := by
  intro l _ _ _
  unfold Handler.conv
  split
  · exact ⟨[], l.ph.priv, .deadend, l.ph.i, rfl, by simp, fun k => absurd k ht⟩
  · rename_i y out hold ha
    refine ⟨out, _, _, l.ph.i, rfl, ?_, fun k => absurd k ht⟩
    cases hold with
    | false => simp
    | true => exact .inr ⟨rfl, hh ⟨_, _, _, _, ha⟩⟩

theorem convOk_encode {t : PType} {lone : Prop} (f : Datum → Option (List Datum)) (ht : t ≠ .from_) : ConvOk t lone (encodeConv (π := π) f) := by
  intro l _ _ _
  unfold encodeConv
  split
  · exact ⟨[], l.ph.priv, .deadend, l.ph.i, rfl, by simp, fun k => absurd k ht⟩
  · rename_i out _
    exact ⟨out, l.ph.priv, .nextphase, l.ph.i, rfl, by simp, fun k => absurd k ht⟩

theorem feed_used {σ : Type} (m : Machine σ) : ∀ (bs : List Nat) (t : σ) {k : Nat} {t' : σ} {out : List Datum} {st : Status},
    m.feed t bs = .ret k t' out st → 1 ≤ k ∧ k ≤ bs.length ∧ ∃ x d y o, m.step x d = (y, o, some st)
  | [], t, k, t', out, st, h => by simp [Machine.feed] at h
  | b :: bs, t, k, t', out, st, h => by
    simp only [Machine.feed] at h
    split at h
    · rename_i y o s hs
      simp only [Fed.ret.injEq] at h
      obtain ⟨rfl, _, _, rfl⟩ := h
      exact ⟨Nat.le_refl _, by simp, _, _, _, _, hs⟩
    · rename_i y o hs
      split at h
      · simp at h
      · rename_i k' t'' o' st' hf
        simp only [Fed.ret.injEq] at h
        obtain ⟨rfl, _, _, rfl⟩ := h
        obtain ⟨h1, h2, h3⟩ := feed_used m bs y hf
        exact ⟨by omega, by simp; omega, h3⟩

/-- A decoder that reads bytes. -/
theorem convOk_machine {σ : Type} {t : PType} {lone : Prop} (m : Machine σ)
    (hm : ∀ x d y o s, m.step x d = (y, o, some s) → s ∈ [Status.cont, .deadend, .match_, .nextphase]) (ht : t = .from_) : ConvOk t lone m.conv := by
  intro l _ _ hi
  have hi := hi ht
  unfold Machine.conv
  simp only
  split
  · exact ⟨_, _, .cont, _, rfl, by simp, fun _ => ⟨by omega, .inr ⟨rfl, rfl⟩⟩⟩
  · rename_i k y out s hf
    obtain ⟨h1, h2, x, d, y', o, h3⟩ := feed_used m _ _ hf
    refine ⟨_, _, s, _, rfl, .inl (hm _ _ _ _ _ h3), fun _ => ⟨by omega, .inl ?_⟩⟩
    simp only [List.length_drop] at h2
    omega

end Verif.Engine
