import Verif.Proofs.EngineIt2

/-! Visits to FROM phases. -/

namespace Verif.Engine
open Verif.Spec

variable {π : Type}

theorem FQuiet.rank {s : Static π} {Rs : List (Rules Nat (List Datum))} {l l' : Loc π}
    {rem fut : List Nat} (h : FQuiet s Rs l l' rem fut) :
    rankV s l' + (l.prev.items.length - l.ph.curr) ≤ rankV s l := by
  unfold rankV
  rw [h.prev, h.curr]
  have hi := h.index
  cases hf : l.ph.fMatch with
  | true => rw [h.fm hf]; simp
  | false =>
    have : (s.codecn - l'.ph.index) * (l.prev.items.length + 1)
        ≤ (s.codecn - l.ph.index) * (l.prev.items.length + 1) := Nat.mul_le_mul_right _ (by omega)
    cases l'.ph.fMatch <;> simp <;> omega

/-- A visit to a FROM phase from the outer loop test. -/
theorem from_visit {s : Static π} {Rs : List (Rules Nat (List Datum))} (hT : FTables s Rs)
    (l : Loc π) (u rest fut : List Nat) (hi : FInv s Rs l u rest fut) (hr : rest = outerRest l)
    (hsafe : FSafe Rs l (u ++ rest) fut) :
    (∃ l', LReach s .fromOuter l l' (.goto .leave) ∧ FQuiet s Rs l l' (u ++ rest) fut) ∨
    (∃ l' ctl, LReach s .fromOuter l l' ctl ∧ FromCtl ctl ∧ FDecide s Rs l l' (u ++ rest) fut) := by
  by_cases hnext : l.ph.curr < l.prev.items.length
  · have hstep2 : localStep s .fromOuter l = ({ l with ph := { l.ph with
        i := if l.ph.curr = 0 then l.ph.consumed else 0
        curr := l.ph.curr + 1 } }, .goto .fromInner) := by
      simp only [localStep, fromOuter, Queue.hasNext, decide_eq_true hnext, if_true]
    generalize hl2 : ({ l with ph := { l.ph with
        i := if l.ph.curr = 0 then l.ph.consumed else 0
        curr := l.ph.curr + 1 } } : Loc π) = l2 at hstep2
    have hinv : FInv s Rs l2 u rest fut := by
      subst hl2
      exact ⟨⟨hi.prevOk, hi.qOk, hi.idx, hi.loop, hi.head, hnext, fun _ => by simp,
        hi.earlier, hi.unmatched, hi.ismatch⟩, hi.walk, hi.pend⟩
    have f1 : l2.prev = l.prev := by subst hl2; rfl
    have f9 : l2.ph.curr = l.ph.curr + 1 := by subst hl2; rfl
    have hir : rest = innerRest l2 := by
      rw [hr]
      unfold innerRest outerRest
      have f9' : ¬ l2.ph.curr = 0 := by omega
      rw [if_neg f9']
      by_cases hc0 : l.ph.curr = 0
      · subst hl2; simp [hc0]
      · rw [if_neg hc0, drop_flatten hnext]
        subst hl2; simp [hc0]
    have hs' : FSafe Rs l2 (u ++ rest) fut := by unfold FSafe; rw [f1]; exact hsafe
    have f6 : l2.ph.index = l.ph.index := by subst hl2; rfl
    rcases from_inner hT l2 u rest fut hinv hir hs' with ⟨l3, k1, k2⟩ | ⟨l3, ctl, k1, k2, k3⟩
    · left
      refine ⟨l3, .cons rfl hstep2 k1, ?_⟩
      refine k2.of_same f1 ?_ ?_ ?_ ?_ (by rw [f6]; exact Nat.le_refl _) ?_ ?_ <;> subst hl2 <;>
        first | rfl | exact id | exact fun _ => rfl
    · right
      refine ⟨l3, ctl, .cons rfl hstep2 k1, k2, ?_⟩
      refine k3.of_same f1 ?_ ?_ ?_ ?_ <;> subst hl2 <;> rfl
  · left
    have hstep2 : localStep s .fromOuter l = (l, .goto .leave) := by
      simp only [localStep, fromOuter, Queue.hasNext, decide_eq_false hnext]; rfl
    have hrnil : rest = [] := by
      rw [hr]; unfold outerRest
      have := hi.currle
      by_cases hc0 : l.ph.curr = 0
      · have hN : l.prev.items = [] := List.length_eq_zero_iff.1 (by omega)
        simp [hc0, unread, hN]
      · rw [if_neg hc0, List.drop_of_length_le (by omega)]; rfl
    subst hrnil
    rw [List.append_nil]
    refine ⟨l, .one rfl hstep2, hi, rfl, rfl, rfl, rfl, rfl, Nat.le_refl _, ?_, id, fun _ => rfl⟩
    have := hi.currle; omega

/-- Flushing a pending FROM phase. -/
theorem from_flush {s : Static π} {Rs : List (Rules Nat (List Datum))} (hT : FTables s Rs)
    (l : Loc π) (u : List Nat) (hi : FInv s Rs l u [] [])
    (hp : l.ph.fPending = true) (hsafe : FSafe Rs l u []) :
    (∃ l', LReach s .fromDead l l' (.goto .leave) ∧ FQuiet s Rs l l' u [] ∧ rankV s l' < rankV s l) ∨
    (∃ l' ctl, LReach s .fromDead l l' ctl ∧ FromCtl ctl ∧ FDecide s Rs l l' u []) := by
  have hu : u ≠ [] := hi.pend.1 hp
  have hnn : l.prev.items ≠ [] := by
    intro h
    have h2 := hi.currle
    have := hi.currpos hu
    rw [h] at h2
    simp only [List.length_nil] at h2
    omega
  have hlt : l.ph.fMatch = false → l.prev.items.length ≤ 1 →
      l.ph.consumed < (l.prev.items.getD 0 []).length := by
    intro hf hN
    obtain ⟨_, h2⟩ := hi.unmatched hf
    rcases Nat.lt_or_ge l.ph.consumed (l.prev.items.getD 0 []).length with h | h
    · exact h
    · exfalso
      have h3 : unread l.prev.items 1 l.ph.consumed = (l.prev.items.drop 1).flatten :=
        unread_next (by simpa using h)
      rw [h3, List.drop_of_length_le hN] at h2
      simp at h2
      exact hu h2
  rcases from_dead hT hi.toFCore (by simp) (by simpa using hu) (hi.currpos hu) hlt
      (by rw [List.append_nil]; exact hsafe) with ⟨l', h1, h2⟩ | ⟨l', h1, h2⟩ | ⟨l', h1, h2⟩
  · right
    rw [List.append_nil] at h2
    exact ⟨l', _, h1, .inl rfl, h2⟩
  · right
    rw [List.append_nil] at h2
    refine ⟨l', .goto .fromOuter, h1.trans (.one rfl ?_), .inr (.inl rfl), h2⟩
    obtain ⟨t, r', _, hinv, _⟩ := h2.ex
    have hh := hinv.head
    simp [localStep, fromInner, h2.curr, hh]
  · obtain ⟨hinv, g1, g2, g3, g4, g5, g6, g7, g8, g9, g10⟩ := h2
    rw [List.append_nil] at hinv g10
    have hs' : FSafe Rs l' ([] ++ u) [] := by
      unfold FSafe; rw [g5, List.nil_append]; exact hsafe
    rcases from_inner hT l' [] u [] hinv g10 hs' with ⟨l2, k1, k2⟩ | ⟨l2, ctl, k1, k2, k3⟩
    · left
      rw [List.nil_append] at k2
      refine ⟨l2, h1.trans k1, k2.of_same g5 g6 g7 g8 g9 (by rw [g2]; omega) (by rw [g4]; simp)
        (fun h => absurd h hnn), ?_⟩
      have hrk := k2.rank
      rw [g1] at hrk
      have hr2 : rankV s l' < rankV s l + (l'.prev.items.length - 0) := by
        unfold rankV
        rw [g4, g5, g2, g1]
        cases l'.ph.fMatch with
        | true =>
          simp only [Bool.false_eq_true, if_false, if_true]
          have : 1 ≤ (s.codecn - l.ph.index) * (l.prev.items.length + 1) :=
            Nat.mul_pos (by omega) (by omega)
          omega
        | false =>
          simp only [Bool.false_eq_true, if_false]
          have := rank_index (k := l.prev.items.length - l.ph.curr) g3 (Nat.zero_le l.prev.items.length)
          omega
      omega
    · right
      rw [List.nil_append] at k3
      exact ⟨l2, ctl, h1.trans k1, k2, k3.of_same g5 g6 g7 g8 g9⟩

end Verif.Engine
