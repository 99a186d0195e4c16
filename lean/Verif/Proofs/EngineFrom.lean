import Verif.Proofs.EngineBasic

/-! The FROM branch refines the token specification. -/

namespace Verif.Engine
open Verif.Spec

variable {π : Type}

/-- Rule set number `j`. -/
def ruleAt {α β : Type} (Rs : List (Rules α β)) (j : Nat) : Rules α β := Rs.getD j []

theorem firstMatch_at {α β : Type} [DecidableEq α] {Rs : List (Rules α β)} {s : List α} {j : Nat}
    {r : Nat × β} (hj : j < Rs.length) (h : ∀ i, i < j → longest (ruleAt Rs i) s = none)
    (hr : longest (ruleAt Rs j) s = some r) : firstMatch Rs s = some r := by
  apply firstMatch_some hj
  · intro i hi
    have := h i hi
    simpa [ruleAt, List.getD_eq_getElem?_getD, List.getElem?_eq_getElem (show i < Rs.length by omega)]
      using this
  · simpa [ruleAt, List.getD_eq_getElem?_getD, List.getElem?_eq_getElem hj] using hr

theorem firstMatch_none_at {α β : Type} [DecidableEq α] {Rs : List (Rules α β)} {s : List α}
    (h : ∀ i, i < Rs.length → longest (ruleAt Rs i) s = none) : firstMatch Rs s = none := by
  apply firstMatch_none
  intro R hR
  obtain ⟨i, hi, rfl⟩ := List.getElem_of_mem hR
  have := h i hi
  simpa [ruleAt, List.getD_eq_getElem?_getD, List.getElem?_eq_getElem hi] using this

/-- Byte tables of a decoding phase. -/
structure FTables (s : Static π) (Rs : List (Rules Nat (List Datum))) : Prop where
  len : Rs.length = s.codecn + 1
  rep : ∀ j, j ≤ s.codecn → Represents (s.codecs j) (ruleAt Rs j)
  data : ∀ j, j ≤ s.codecn → ∀ r ∈ ruleAt Rs j, r.2 ≠ []

/-- The bytes from offset `i` of node `curr` on. -/
def unread (ds : List Datum) (curr i : Nat) : List Nat :=
  (ds.getD (curr - 1) []).drop i ++ (ds.drop curr).flatten

/-- What holds throughout the FROM branch: `u` are the bytes the current codec has read, `rest` the
unread ones, `fut` those still to come into the queue. -/
structure FCore (s : Static π) (Rs : List (Rules Nat (List Datum))) (l : Loc π)
    (u rest fut : List Nat) : Prop where
  prevOk : l.prev.Ok
  qOk : l.ph.q.Ok
  idx : l.ph.index ≤ s.codecn
  loop : l.ph.fLoop = false
  head : l.prevHeadLen = 0
  currle : l.ph.curr ≤ l.prev.items.length
  currpos : u ≠ [] → 1 ≤ l.ph.curr
  earlier : ∀ j, j < l.ph.index → longest (ruleAt Rs j) (u ++ rest ++ fut) = none
  unmatched : l.ph.fMatch = false → longest (ruleAt Rs l.ph.index) u = none ∧
    unread l.prev.items 1 l.ph.consumed = u ++ rest
  ismatch : l.ph.fMatch = true → ∃ m b, longest (ruleAt Rs l.ph.index) u = some (m, b) ∧
    l.ph.matchData = b ∧ 1 ≤ l.ph.bak ∧ l.ph.bak ≤ l.prev.items.length ∧
    unread l.prev.items l.ph.bak l.ph.consumed = (u ++ rest).drop m

/-- Between transitions. -/
structure FInv (s : Static π) (Rs : List (Rules Nat (List Datum))) (l : Loc π)
    (u rest fut : List Nat) : Prop extends FCore s Rs l u rest fut where
  walk : walk (s.codecs l.ph.index) 0 u = some l.ph.st
  pend : l.ph.fPending = true ↔ u ≠ []

/-- Position reached at the inner loop test. -/
def innerRest (l : Loc π) : List Nat :=
  if l.ph.curr = 0 then unread l.prev.items 1 l.ph.consumed else unread l.prev.items l.ph.curr l.ph.i

/-- Position reached at the outer loop test. -/
def outerRest (l : Loc π) : List Nat :=
  if l.ph.curr = 0 then unread l.prev.items 1 l.ph.consumed else (l.prev.items.drop l.ph.curr).flatten

/-- Condition under which the error branch skips exactly one byte. -/
def FSafe (Rs : List (Rules Nat (List Datum))) (l : Loc π) (rem fut : List Nat) : Prop :=
  misses (tokens Rs (rem ++ fut)) = 0 ∨ l.prev.items.length ≤ 1

/-- Result of a visit that decided nothing. -/
structure FQuiet (s : Static π) (Rs : List (Rules Nat (List Datum))) (l l' : Loc π)
    (rem fut : List Nat) : Prop where
  inv : FInv s Rs l' rem [] fut
  prev : l'.prev = l.prev
  q : l'.ph.q = l.ph.q
  ierr : l'.ierr = l.ierr
  oerr : l'.oerr = l.oerr
  consumedHead : l'.prevHeadLen = l.prevHeadLen
  index : l.ph.index ≤ l'.ph.index
  curr : l'.ph.curr = l.prev.items.length
  fm : l.ph.fMatch = true → l'.ph.fMatch = true
  cons0 : l.prev.items = [] → l'.ph.consumed = l.ph.consumed

/-- Result of a decision: one token is consumed. -/
structure FDecide (s : Static π) (Rs : List (Rules Nat (List Datum))) (l l' : Loc π)
    (rem fut : List Nat) : Prop where
  ex : ∃ t rest', tokens Rs (rem ++ fut) = t :: tokens Rs (rest' ++ fut) ∧
    FInv s Rs l' [] rest' fut ∧ rest' = outerRest l' ∧
    l'.ph.q = l.ph.q.pushAll (dropMisses [t]) ∧ l'.ierr = l.ierr + misses [t]
  oerr : l'.oerr = l.oerr
  prevLen : l'.prev.items.length ≤ l.prev.items.length
  prevNe : l'.prev.items ≠ []
  curr : l'.ph.curr = 0
  consumedHead : l'.prevHeadLen = l.prevHeadLen

theorem getD_get (q : Queue) (k : Nat) : q.get k = q.items.getD (k - 1) [] := rfl

theorem unread_drop_pred (ds : List Datum) (k i : Nat) (h : 1 ≤ k) :
    unread (ds.drop (k - 1)) 1 i = unread ds k i := by
  unfold unread
  congr 1
  · congr 1
    simp [List.getD_eq_getElem?_getD]
  · rw [List.drop_drop]; congr 2; omega

theorem unread_cons {ds : List Datum} {k i : Nat} (h : i < (ds.getD (k - 1) []).length) :
    unread ds k i = (ds.getD (k - 1) [])[i] :: unread ds k (i + 1) := by
  unfold unread
  rw [← List.cons_append, List.getElem_cons_drop]

theorem unread_next {ds : List Datum} {k i : Nat} (h : ¬ i < (ds.getD (k - 1) []).length) :
    unread ds k i = (ds.drop k).flatten := by
  unfold unread
  rw [List.drop_of_length_le (by omega)]; simp

theorem drop_flatten {ds : List Datum} {k : Nat} (h : k < ds.length) :
    (ds.drop k).flatten = unread ds (k + 1) 0 := by
  unfold unread
  have : (ds.drop k).flatten = ds[k] ++ (ds.drop (k + 1)).flatten := by
    rw [List.drop_eq_getElem_cons h]; rfl
  rw [this]
  simp [List.getD_eq_getElem?_getD, List.getElem?_eq_getElem h]

/-- `from_deadend`, when the current codec's match is decided by what it read. -/
theorem from_dead {s : Static π} {Rs : List (Rules Nat (List Datum))} (hT : FTables s Rs) {l : Loc π}
    {u rest fut : List Nat} (hc : FCore s Rs l u rest fut)
    (hdec : longest (ruleAt Rs l.ph.index) (u ++ rest ++ fut) = longest (ruleAt Rs l.ph.index) u)
    (hne : u ++ rest ≠ []) (hcur : 1 ≤ l.ph.curr)
    (hlt : l.ph.fMatch = false → l.prev.items.length ≤ 1 →
        l.ph.consumed < (l.prev.items.getD 0 []).length)
    (hsafe : FSafe Rs l (u ++ rest) fut) :
    (∃ l', LReach s .fromDead l l' (.goto .begin) ∧ FDecide s Rs l l' (u ++ rest) fut) ∨
    (∃ l', LReach s .fromDead l l' (.goto .fromInner) ∧ FDecide s Rs l l' (u ++ rest) fut) ∨
    (∃ l', LReach s .fromDead l l' (.goto .fromInner) ∧ FInv s Rs l' [] (u ++ rest) fut ∧
      l'.ph.curr = 0 ∧ l'.ph.index = l.ph.index + 1 ∧ l.ph.index < s.codecn ∧ l.ph.fMatch = false ∧
      l'.prev = l.prev ∧ l'.ph.q = l.ph.q ∧ l'.ierr = l.ierr ∧ l'.oerr = l.oerr ∧
      l'.prevHeadLen = l.prevHeadLen ∧ u ++ rest = innerRest l') := by
  cases hm : l.ph.fMatch with
  | true =>
    left
    obtain ⟨m, b, h1, h2, h3, h4, h5⟩ := hc.ismatch hm
    have hbne : l.ph.matchData ≠ [] := by
      rw [h2]
      have := lookup_mem (longest_some h1).2.2
      exact hT.data _ hc.idx _ this
    have hmle := (longest_some h1).2.1
    refine ⟨_, .one rfl (by
      simp only [localStep, fromDead, hm, if_true, emitMatch, if_pos hbne]; rfl), ?_⟩
    have hfm : firstMatch Rs (u ++ rest ++ fut) = some (m, b) :=
      firstMatch_at (by rw [hT.len]; have := hc.idx; omega) hc.earlier (by rw [hdec, h1])
    have hdrop : (u ++ rest ++ fut).drop m = (u ++ rest).drop m ++ fut := by
      rw [List.drop_append_of_le_length]; simp; omega
    obtain ⟨hp1, hp2⟩ := Queue.listFree_ok hc.prevOk l.ph.bak
    have hq := Queue.pushAll_ok hc.qOk b
    refine ⟨⟨.hit b, (u ++ rest).drop m, ?_, ?_, ?_, ?_, ?_⟩, rfl, ?_, ?_, rfl, rfl⟩
    · rw [tokens_hit hfm, hdrop]
    · refine ⟨⟨hp1, ?_, by simp [Ph.reset], rfl, hc.head, by simp [Ph.reset], by simp, ?_, ?_, ?_⟩, ?_, ?_⟩
      · simpa [Ph.reset, h2] using hq.1
      · intro j hj; simp [Ph.reset] at hj
      · intro _
        refine ⟨rfl, ?_⟩
        simp only [Ph.reset, hp2, List.nil_append]
        rw [unread_drop_pred _ _ _ h3, h5]
      · intro h; simp [Ph.reset] at h
      · simp [Ph.reset, Verif.Engine.walk]
      · simp [Ph.reset]
    · simp only [outerRest, Ph.reset, hp2, if_true]
      rw [unread_drop_pred _ _ _ h3, h5]
    · simp [Ph.reset, h2, dropMisses]
    · simp [misses]
    · simp only [hp2, List.length_drop]; omega
    · simp only [hp2]
      intro h
      have := congrArg List.length h
      simp at this
      omega
  | false =>
    obtain ⟨h1, h2⟩ := hc.unmatched hm
    right
    by_cases hi : l.ph.index < s.codecn
    · right
      refine ⟨_, .one rfl (by
        simp only [localStep, fromDead, hm, Bool.false_eq_true, if_false, if_pos hi]; rfl), ?_⟩
      refine ⟨⟨⟨hc.prevOk, hc.qOk, ?_, rfl, hc.head, by simp, by simp, ?_, ?_, ?_⟩, ?_, ?_⟩, rfl, rfl, hi, rfl,
        rfl, rfl, rfl, rfl, rfl, ?_⟩
      · show l.ph.index + 1 ≤ _; omega
      · intro j hj
        simp only at hj
        simp only [List.nil_append]
        by_cases hji : j = l.ph.index
        · subst hji; rw [hdec, h1]
        · exact hc.earlier j (by omega)
      · intro _; exact ⟨rfl, by simpa using h2⟩
      · intro h; simp [hm] at h
      · simp [Verif.Engine.walk]
      · simp
      · simp [innerRest, h2]
    · left
      have hnone : firstMatch Rs (u ++ rest ++ fut) = none := by
        apply firstMatch_none_at
        intro j hj
        rw [hT.len] at hj
        have := hc.idx
        by_cases hji : j = l.ph.index
        · subst hji; rw [hdec, h1]
        · exact hc.earlier j (by omega)
      obtain ⟨a, t, hat⟩ := List.exists_cons_of_ne_nil hne
      have htok : tokens Rs (u ++ rest ++ fut) = .miss a :: tokens Rs (t ++ fut) := by
        rw [hat] at hnone ⊢
        exact tokens_miss hnone
      have hlen : l.prev.items.length ≤ 1 := by
        rcases hsafe with h | h
        · rw [htok] at h; simp [misses] at h
        · exact h
      have hcur1 : l.ph.curr = 1 := by have := hc.currle; omega
      refine ⟨_, .one rfl (by
        simp only [localStep, fromDead, hm, Bool.false_eq_true, if_false, if_neg hi]; rfl), ?_⟩
      obtain ⟨hp1, hp2⟩ := Queue.listFree_ok hc.prevOk l.ph.curr
      have hp2' : (l.prev.listFree l.ph.curr).items = l.prev.items := by
        rw [hp2, hcur1]; rfl
      have hcl := hlt hm hlen
      have hur : unread l.prev.items 1 (l.ph.consumed + 1) = t := by
        have := unread_cons (ds := l.prev.items) (k := 1) hcl
        rw [h2, hat] at this
        exact (List.cons.inj this).2.symm
      refine ⟨⟨.miss a, t, htok, ?_, ?_, ?_, ?_⟩, rfl, ?_, ?_, rfl, rfl⟩
      · refine ⟨⟨hp1, hc.qOk, by simp [Ph.reset], rfl, hc.head, by simp [Ph.reset], by simp, ?_, ?_, ?_⟩, ?_, ?_⟩
        · intro j hj; simp [Ph.reset] at hj
        · intro _
          refine ⟨rfl, ?_⟩
          simp only [Ph.reset, List.nil_append]
          rw [hp2', hur]
        · intro h; simp [Ph.reset, hm] at h
        · simp [Ph.reset, Verif.Engine.walk]
        · simp [Ph.reset]
      · simp only [outerRest, Ph.reset, if_true]
        rw [hp2', hur]
      · simp [Ph.reset, dropMisses, Queue.pushAll]
      · simp [misses]
      · simp only [Ph.reset]; rw [hp2']; exact Nat.le_refl _
      · simp only [Ph.reset]; rw [hp2']
        intro h
        have h2 := hc.currle
        rw [h] at h2
        simp only [List.length_nil] at h2
        omega


theorem FQuiet.of_same {s : Static π} {Rs : List (Rules Nat (List Datum))} {l l1 l' : Loc π}
    {rem fut : List Nat} (h : FQuiet s Rs l1 l' rem fut) (h1 : l1.prev = l.prev)
    (h2 : l1.ph.q = l.ph.q) (h3 : l1.ierr = l.ierr) (h4 : l1.oerr = l.oerr)
    (h5 : l1.prevHeadLen = l.prevHeadLen) (h6 : l.ph.index ≤ l1.ph.index)
    (h7 : l.ph.fMatch = true → l1.ph.fMatch = true)
    (h8 : l.prev.items = [] → l1.ph.consumed = l.ph.consumed) : FQuiet s Rs l l' rem fut :=
  ⟨h.inv, h.prev.trans h1, h.q.trans h2, h.ierr.trans h3, h.oerr.trans h4, h.consumedHead.trans h5,
    Nat.le_trans h6 h.index, by rw [h.curr, h1], fun h' => h.fm (h7 h'),
    fun h' => (h.cons0 (by rw [h1]; exact h')).trans (h8 h')⟩

theorem FDecide.of_same {s : Static π} {Rs : List (Rules Nat (List Datum))} {l l1 l' : Loc π}
    {rem fut : List Nat} (h : FDecide s Rs l1 l' rem fut) (h1 : l1.prev = l.prev)
    (h2 : l1.ph.q = l.ph.q) (h3 : l1.ierr = l.ierr) (h4 : l1.oerr = l.oerr)
    (h5 : l1.prevHeadLen = l.prevHeadLen) : FDecide s Rs l l' rem fut := by
  obtain ⟨⟨t, rest', a, b, c, d, e⟩, f, g, n, i, j⟩ := h
  exact ⟨⟨t, rest', a, b, c, by rw [d, h2], by rw [e, h3]⟩, f.trans h4, by rw [← h1]; exact g, n, i, j.trans h5⟩

/-- Control after a decision. -/
def FromCtl (ctl : Ctl) : Prop := ctl = .goto .begin ∨ ctl = .goto .fromOuter ∨ ctl = .nextBegin

theorem longest_rules_cont {S : Rules Nat (List Datum)} {p : List Nat} (h : nodeStatus S p = .cont) :
    lookup S p = none := by
  unfold nodeStatus at h
  split at h
  · assumption
  · split at h <;> simp at h

theorem nodeStatus_match {S : Rules Nat (List Datum)} {p : List Nat} (h : nodeStatus S p = .match_) :
    (∃ b, lookup S p = some b) ∧ ∀ r ∈ S, p <+: r.1 → r.1 = p := by
  unfold nodeStatus at h
  split at h
  · simp at h
  · rename_i b hb
    split at h
    · simp at h
    · rename_i he
      refine ⟨⟨b, hb⟩, ?_⟩
      intro r hr hp
      by_cases hne : r.1 = p
      · exact hne
      · exact absurd ((extendable_iff S p).2 ⟨r, hr, hp, hne⟩) he

theorem nodeStatus_submatch {S : Rules Nat (List Datum)} {p : List Nat}
    (h : nodeStatus S p = .submatch) : ∃ b, lookup S p = some b := by
  unfold nodeStatus at h
  split at h
  · simp at h
  · rename_i b hb; exact ⟨b, hb⟩

theorem nodeStatus_cases (S : Rules Nat (List Datum)) (p : List Nat) :
    nodeStatus S p = .cont ∨ nodeStatus S p = .submatch ∨ nodeStatus S p = .match_ := by
  unfold nodeStatus
  split
  · simp
  · split <;> simp

/-- A visit to a FROM phase from the inner loop test. -/
theorem from_inner {s : Static π} {Rs : List (Rules Nat (List Datum))} (hT : FTables s Rs)
    (l : Loc π) (u rest fut : List Nat) (hi : FInv s Rs l u rest fut) (hr : rest = innerRest l)
    (hsafe : FSafe Rs l (u ++ rest) fut) :
    (∃ l', LReach s .fromInner l l' (.goto .leave) ∧ FQuiet s Rs l l' (u ++ rest) fut) ∨
    (∃ l' ctl, LReach s .fromInner l l' ctl ∧ FromCtl ctl ∧ FDecide s Rs l l' (u ++ rest) fut) := by
  by_cases hin : l.ph.curr ≠ 0 ∧ l.ph.i < (l.prev.get l.ph.curr).length
  · -- a byte is read
    obtain ⟨hcur, hlt⟩ := hin
    have hcons : rest = (l.prev.get l.ph.curr)[l.ph.i] :: unread l.prev.items l.ph.curr (l.ph.i + 1) := by
      rw [hr, innerRest, if_neg hcur]
      exact unread_cons hlt
    generalize ha : (l.prev.get l.ph.curr)[l.ph.i] = a at hcons
    generalize hrest' : unread l.prev.items l.ph.curr (l.ph.i + 1) = rest' at hcons
    have hrep := hT.rep _ hi.idx
    have hcN : 1 ≤ l.ph.curr := by omega
    have hnn : l.prev.items ≠ [] := by
      intro h
      have h2 := hi.currle
      rw [h] at h2
      simp only [List.length_nil] at h2
      omega
    have hstep : localStep s .fromInner l
        = ({ l with ph := l.ph.advance s a }, .goto .fromSw) := by
      simp only [localStep, fromInner, if_neg hcur, dif_pos hlt, ha]
    generalize hl1 : ({ l with ph := l.ph.advance s a } : Loc π) = l1 at hstep
    have hw := walk_snoc hi.walk a
    have e1 : l1.prev = l.prev := by subst hl1; rfl
    have e2 : l1.ph.q = l.ph.q := by subst hl1; rfl
    have e3 : l1.ierr = l.ierr := by subst hl1; rfl
    have e4 : l1.oerr = l.oerr := by subst hl1; rfl
    have e5 : l1.prevHeadLen = l.prevHeadLen := by subst hl1; rfl
    have e6 : l1.ph.index = l.ph.index := by subst hl1; rfl
    have e7 : l1.ph.fMatch = l.ph.fMatch := by subst hl1; rfl
    have e8 : l1.ph.consumed = l.ph.consumed := by subst hl1; rfl
    have e9 : l1.ph.curr = l.ph.curr := by subst hl1; rfl
    have e10 : l1.ph.i = l.ph.i := by subst hl1; rfl
    by_cases hnx : (s.codecs l.ph.index).next l.ph.st a = 0
    · -- no transition: dead end
      rw [if_pos hnx] at hw
      have hst : l1.ph.status = .deadend := by
        subst hl1
        simp only [Ph.advance, Static.codec, hnx, hi.loop]
        simpa using hrep.root
      have hcore : FCore s Rs l1 u rest fut := by
        subst hl1
        exact ⟨hi.prevOk, hi.qOk, hi.idx, hi.loop, hi.head, hi.currle, hi.currpos, hi.earlier,
          hi.unmatched, hi.ismatch⟩
      have hdead := hrep.dead (p := u ++ [a]) (by simp) hw
      have hdec : longest (ruleAt Rs l1.ph.index) (u ++ rest ++ fut)
          = longest (ruleAt Rs l1.ph.index) u := by
        rw [hcons, e6]
        have := longest_append_of_dead (Y := rest' ++ fut) hdead
        simpa using this
      have hsw : localStep s .fromSw l1 = (l1, .goto .fromDead) := by
        simp only [localStep, fromSw, hst]
      have hltc : l1.ph.fMatch = false → l1.prev.items.length ≤ 1 →
          l1.ph.consumed < (l1.prev.items.getD 0 []).length := by
        intro hf hN
        rw [e7] at hf
        rw [e1] at hN
        rw [e8, e1]
        have hcu : l.ph.curr = 1 := by have := hi.currle; omega
        obtain ⟨_, h2⟩ := hi.unmatched hf
        rcases Nat.lt_or_ge l.ph.consumed (l.prev.items.getD 0 []).length with h | h
        · exact h
        · exfalso
          have h3 : unread l.prev.items 1 l.ph.consumed = (l.prev.items.drop 1).flatten :=
            unread_next (by simpa using h)
          rw [h3, List.drop_of_length_le hN, hcons] at h2
          simp at h2
      rcases from_dead hT hcore hdec (by rw [hcons]; simp) (by rw [e9]; exact hcN) hltc
          (by unfold FSafe; rw [e1]; exact hsafe) with ⟨l', h1, h2⟩ | ⟨l', h1, h2⟩ | ⟨l', h1, h2⟩
      · right
        exact ⟨l', _, .cons rfl hstep (.cons rfl hsw h1), .inl rfl, h2.of_same e1 e2 e3 e4 e5⟩
      · right
        refine ⟨l', .goto .fromOuter, .cons rfl hstep (.cons rfl hsw (h1.trans (.one rfl ?_))),
          .inr (.inl rfl), h2.of_same e1 e2 e3 e4 e5⟩
        obtain ⟨t, r', _, hinv, _⟩ := h2.ex
        have hh := hinv.head
        simp [localStep, fromInner, h2.curr, hh]
      · obtain ⟨hinv, g1, g2, g3, g4, g5, g6, g7, g8, g9, g10⟩ := h2
        have hs' : FSafe Rs l' ([] ++ (u ++ rest)) fut := by
          unfold FSafe; rw [g5, e1, List.nil_append]; exact hsafe
        rcases from_inner hT l' [] (u ++ rest) fut hinv g10 hs' with ⟨l2, k1, k2⟩ | ⟨l2, ctl, k1, k2, k3⟩
        · left
          refine ⟨l2, .cons rfl hstep (.cons rfl hsw (h1.trans k1)), ?_⟩
          exact k2.of_same (g5.trans e1) (g6.trans e2) (g7.trans e3) (g8.trans e4) (g9.trans e5)
            (by rw [g2, e6]; omega) (by rw [← e7, g4]; simp) (fun h => absurd h hnn)
        · right
          refine ⟨l2, ctl, .cons rfl hstep (.cons rfl hsw (h1.trans k1)), k2, ?_⟩
          exact k3.of_same (g5.trans e1) (g6.trans e2) (g7.trans e3) (g8.trans e4) (g9.trans e5)
    · -- a transition
      rw [if_neg hnx] at hw
      have hst0 : l1.ph.st = (s.codecs l.ph.index).next l.ph.st a := by
        subst hl1; simp [Ph.advance, Static.codec, hnx]
      have hst : l1.ph.status = nodeStatus (ruleAt Rs l.ph.index) (u ++ [a]) := by
        have := hrep.status (u ++ [a]) _ (by simp) hw
        subst hl1; simp [Ph.advance, Static.codec, hnx]; exact this
      have hdata : ∀ b, lookup (ruleAt Rs l.ph.index) (u ++ [a]) = some b →
          (s.codec l1.ph).data l1.ph.st = b := by
        intro b hb
        have := hrep.data (u ++ [a]) _ b hw hb
        rw [hst0, Static.codec, e6]; exact this
      have hrem : u ++ rest = (u ++ [a]) ++ rest' := by rw [hcons]; simp
      have hposle : l.ph.curr ≤ l.prev.items.length := hi.currle
      rcases nodeStatus_cases (ruleAt Rs l.ph.index) (u ++ [a]) with hns | hns | hns
      · -- CONTINUE
        rw [hns] at hst
        have hlk := longest_rules_cont hns
        have hlong : longest (ruleAt Rs l.ph.index) (u ++ [a]) = longest (ruleAt Rs l.ph.index) u := by
          rw [longest_snoc, hlk]
        have hsw : localStep s .fromSw l1
            = ({ l1 with ph := { l1.ph with fPending := true, i := l1.ph.i + 1 } }, .goto .fromInner) := by
          simp only [localStep, fromSw, hst]
        generalize hl2 : ({ l1 with ph := { l1.ph with fPending := true, i := l1.ph.i + 1 } } : Loc π) = l2 at hsw
        have hinv : FInv s Rs l2 (u ++ [a]) rest' fut := by
          subst hl2; subst hl1
          refine ⟨⟨hi.prevOk, hi.qOk, hi.idx, hi.loop, hi.head, hi.currle, fun _ => hcN, ?_, ?_, ?_⟩, ?_, ?_⟩
          · intro j hj; rw [← hrem]; exact hi.earlier j hj
          · intro hf; obtain ⟨h1, h2⟩ := hi.unmatched hf
            exact ⟨hlong.trans h1, by rw [← hrem]; exact h2⟩
          · intro hf; obtain ⟨m, b, h1, h2, h3, h4, h5⟩ := hi.ismatch hf
            exact ⟨m, b, hlong.trans h1, h2, h3, h4, by rw [← hrem]; exact h5⟩
          · simp only [Ph.advance, Static.codec] at hst0 ⊢
            rw [hst0]; exact hw
          · simp
        have f1 : l2.prev = l.prev := by subst hl2; exact e1
        have f9 : l2.ph.curr = l.ph.curr := by subst hl2; exact e9
        have f10 : l2.ph.i = l.ph.i + 1 := by subst hl2; simp [e10]
        have hir : rest' = innerRest l2 := by
          rw [innerRest, f9, if_neg hcur, f1, f10, hrest']
        have hs' : FSafe Rs l2 ((u ++ [a]) ++ rest') fut := by
          unfold FSafe; rw [f1, ← hrem]; exact hsafe
        have f6 : l2.ph.index = l.ph.index := by subst hl2; exact e6
        rcases from_inner hT l2 (u ++ [a]) rest' fut hinv hir hs' with ⟨l3, k1, k2⟩ | ⟨l3, ctl, k1, k2, k3⟩
        · left
          refine ⟨l3, .cons rfl hstep (.cons rfl hsw k1), ?_⟩
          rw [hrem]
          refine k2.of_same f1 ?_ ?_ ?_ ?_ (by rw [f6]; exact Nat.le_refl _) ?_ (fun h => absurd h hnn) <;>
            subst hl2 <;> try assumption
          simp [e7]
        · right
          refine ⟨l3, ctl, .cons rfl hstep (.cons rfl hsw k1), k2, ?_⟩
          rw [hrem]
          refine k3.of_same f1 ?_ ?_ ?_ ?_ <;> subst hl2 <;> assumption
      · -- SUBMATCH
        rw [hns] at hst
        obtain ⟨b, hlk⟩ := nodeStatus_submatch hns
        have hlong : longest (ruleAt Rs l.ph.index) (u ++ [a]) = some ((u ++ [a]).length, b) := by
          rw [longest_snoc, hlk]; simp
        have hsw : localStep s .fromSw l1
            = ({ l1 with ph := { l1.ph with
                  fMatch := true, fPending := true, matchData := (s.codec l1.ph).data l1.ph.st,
                  bak := l1.ph.curr, consumed := l1.ph.i + 1, i := l1.ph.i + 1 } }, .goto .fromInner) := by
          simp only [localStep, fromSw, hst]
        rw [hdata b hlk] at hsw
        generalize hl2 : ({ l1 with ph := { l1.ph with
                  fMatch := true, fPending := true, matchData := b,
                  bak := l1.ph.curr, consumed := l1.ph.i + 1, i := l1.ph.i + 1 } } : Loc π) = l2 at hsw
        have hinv : FInv s Rs l2 (u ++ [a]) rest' fut := by
          subst hl2; subst hl1
          refine ⟨⟨hi.prevOk, hi.qOk, hi.idx, hi.loop, hi.head, hi.currle, fun _ => hcN, ?_, ?_, ?_⟩, ?_, ?_⟩
          · intro j hj; rw [← hrem]; exact hi.earlier j hj
          · intro hf; simp at hf
          · intro _
            refine ⟨_, b, hlong, rfl, hcN, hposle, ?_⟩
            simp only [Ph.advance]
            rw [hrest']
            rw [List.drop_left]
          · simp only [Ph.advance, Static.codec] at hst0 ⊢
            rw [hst0]; exact hw
          · simp
        have f1 : l2.prev = l.prev := by subst hl2; exact e1
        have f9 : l2.ph.curr = l.ph.curr := by subst hl2; exact e9
        have f10 : l2.ph.i = l.ph.i + 1 := by subst hl2; simp [e10]
        have hir : rest' = innerRest l2 := by
          rw [innerRest, f9, if_neg hcur, f1, f10, hrest']
        have hs' : FSafe Rs l2 ((u ++ [a]) ++ rest') fut := by
          unfold FSafe; rw [f1, ← hrem]; exact hsafe
        have f6 : l2.ph.index = l.ph.index := by subst hl2; exact e6
        rcases from_inner hT l2 (u ++ [a]) rest' fut hinv hir hs' with ⟨l3, k1, k2⟩ | ⟨l3, ctl, k1, k2, k3⟩
        · left
          refine ⟨l3, .cons rfl hstep (.cons rfl hsw k1), ?_⟩
          rw [hrem]
          refine k2.of_same f1 ?_ ?_ ?_ ?_ (by rw [f6]; exact Nat.le_refl _) ?_ (fun h => absurd h hnn) <;>
            subst hl2 <;> try assumption
          simp
        · right
          refine ⟨l3, ctl, .cons rfl hstep (.cons rfl hsw k1), k2, ?_⟩
          rw [hrem]
          refine k3.of_same f1 ?_ ?_ ?_ ?_ <;> subst hl2 <;> assumption
      · -- MATCH
        rw [hns] at hst
        obtain ⟨⟨b, hlk⟩, hclosed⟩ := nodeStatus_match hns
        have hlong : longest (ruleAt Rs l.ph.index) (u ++ [a]) = some ((u ++ [a]).length, b) := by
          rw [longest_snoc, hlk]; simp
        right
        refine ⟨_, .nextBegin, .cons rfl hstep (.one rfl (by simp only [localStep, fromSw, hst]; rfl)),
          .inr (.inr rfl), ?_⟩
        have hlong' : longest (ruleAt Rs l.ph.index) (u ++ rest ++ fut) = some ((u ++ [a]).length, b) := by
          rw [hrem, List.append_assoc, longest_append_of_closed hclosed, hlong]
        have hfm : firstMatch Rs (u ++ rest ++ fut) = some ((u ++ [a]).length, b) :=
          firstMatch_at (by rw [hT.len]; have := hi.idx; omega) hi.earlier hlong'
        have hdrop : (u ++ rest ++ fut).drop (u ++ [a]).length = rest' ++ fut := by
          rw [hrem, List.append_assoc, List.drop_left]
        rw [hdata b hlk]
        obtain ⟨hp1, hp2⟩ := Queue.listFree_ok hi.prevOk l.ph.curr
        have hq := Queue.pushAll_ok hi.qOk b
        have hur : unread (l.prev.listFree l.ph.curr).items 1 (l.ph.i + 1) = rest' := by
          rw [hp2, unread_drop_pred _ _ _ hcN, hrest']
        refine ⟨⟨.hit b, rest', ?_, ?_, ?_, ?_, ?_⟩, ?_, ?_, ?_, rfl, ?_⟩
        · rw [tokens_hit hfm, hdrop]
        · refine ⟨⟨?_, ?_, by simp [Ph.reset], rfl, by simp [e5, hi.head], by simp [Ph.reset], by simp, ?_, ?_, ?_⟩, ?_, ?_⟩
          · simpa [e1, e9] using hp1
          · simpa [Ph.reset, e2] using hq.1
          · intro j hj; simp [Ph.reset] at hj
          · intro _
            refine ⟨rfl, ?_⟩
            simp only [Ph.reset, List.nil_append, e1, e9, e10]
            exact hur
          · intro h; simp [Ph.reset] at h
          · simp [Ph.reset, Verif.Engine.walk]
          · simp [Ph.reset]
        · simp only [outerRest, Ph.reset, if_true, e1, e9, e10]
          exact hur.symm
        · simp [Ph.reset, dropMisses, e2]
        · simp [misses, e3]
        · simp [e4]
        · simp only [e1, e9, hp2, List.length_drop]; omega
        · simp only [e1, e9, hp2]
          intro h
          have := congrArg List.length h
          simp at this
          omega
        · simp [e5]
  · -- end of the chunk (or sentinel): go to the outer loop
    have hstep : localStep s .fromInner l = (l, .goto .fromOuter) := by
      by_cases hc0 : l.ph.curr = 0
      · simp [localStep, fromInner, hc0, hi.head]
      · have : ¬ l.ph.i < (l.prev.get l.ph.curr).length := fun h => hin ⟨hc0, h⟩
        simp only [localStep, fromInner, if_neg hc0, dif_neg this]
    have hor : rest = outerRest l := by
      rw [hr]; unfold innerRest outerRest
      by_cases hc0 : l.ph.curr = 0
      · simp [hc0]
      · rw [if_neg hc0, if_neg hc0]
        exact unread_next (fun h => hin ⟨hc0, h⟩)
    by_cases hnext : l.ph.curr < l.prev.items.length
    · -- next chunk
      have hstep2 : localStep s .fromOuter l = ({ l with ph := { l.ph with
          i := if l.ph.curr = 0 then l.ph.consumed else 0
          curr := l.ph.curr + 1 } }, .goto .fromInner) := by
        simp only [localStep, fromOuter, Queue.hasNext, decide_eq_true hnext, if_true]
      generalize hl2 : ({ l with ph := { l.ph with
          i := if l.ph.curr = 0 then l.ph.consumed else 0
          curr := l.ph.curr + 1 } } : Loc π) = l2 at hstep2
      have hinv : FInv s Rs l2 u rest fut := by
        subst hl2
        exact ⟨⟨hi.prevOk, hi.qOk, hi.idx, hi.loop, hi.head, hnext, fun _ => by simp,
          hi.earlier, hi.unmatched, hi.ismatch⟩, hi.walk, hi.pend⟩
      have f1 : l2.prev = l.prev := by subst hl2; rfl
      have f9 : l2.ph.curr = l.ph.curr + 1 := by subst hl2; rfl
      have hir : rest = innerRest l2 := by
        rw [hor]
        unfold innerRest outerRest
        have f9' : ¬ l2.ph.curr = 0 := by omega
        rw [if_neg f9']
        by_cases hc0 : l.ph.curr = 0
        · subst hl2; simp [hc0]
        · rw [if_neg hc0, drop_flatten hnext]
          subst hl2; simp [hc0]
      have hs' : FSafe Rs l2 (u ++ rest) fut := by unfold FSafe; rw [f1]; exact hsafe
      have f6 : l2.ph.index = l.ph.index := by subst hl2; rfl
      rcases from_inner hT l2 u rest fut hinv hir hs' with ⟨l3, k1, k2⟩ | ⟨l3, ctl, k1, k2, k3⟩
      · left
        refine ⟨l3, .cons rfl hstep (.cons rfl hstep2 k1), ?_⟩
        refine k2.of_same f1 ?_ ?_ ?_ ?_ (by rw [f6]; exact Nat.le_refl _) ?_ ?_ <;> subst hl2 <;>
          first | rfl | exact id | exact fun _ => rfl
      · right
        refine ⟨l3, ctl, .cons rfl hstep (.cons rfl hstep2 k1), k2, ?_⟩
        refine k3.of_same f1 ?_ ?_ ?_ ?_ <;> subst hl2 <;> rfl
    · -- queue exhausted
      left
      have hstep2 : localStep s .fromOuter l = (l, .goto .leave) := by
        simp only [localStep, fromOuter, Queue.hasNext, decide_eq_false hnext]; rfl
      have hrnil : rest = [] := by
        rw [hor]; unfold outerRest
        have := hi.currle
        by_cases hc0 : l.ph.curr = 0
        · have hN : l.prev.items = [] := List.length_eq_zero_iff.1 (by omega)
          simp [hc0, unread, hN]
        · rw [if_neg hc0, List.drop_of_length_le (by omega)]; rfl
      subst hrnil
      rw [List.append_nil]
      refine ⟨l, .cons rfl hstep (.one rfl hstep2), hi, rfl, rfl, rfl, rfl, rfl, Nat.le_refl _, ?_, id, fun _ => rfl⟩
      have := hi.currle; omega
termination_by (s.codecn - l.ph.index, rest.length + (l.prev.items.length - l.ph.curr))
decreasing_by
  all_goals simp_wf
  · left; rw [g2, e6]; rw [e6] at g3; omega
  · right
    have hl := congrArg List.length hcons
    simp only [List.length_cons] at hl
    simp only [Ph.advance]; omega
  · right
    have hl := congrArg List.length hcons
    simp only [List.length_cons] at hl
    simp only [Ph.advance]; omega
  · right; omega

end Verif.Engine
