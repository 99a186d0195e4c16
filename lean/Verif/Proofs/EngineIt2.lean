import Verif.Proofs.EngineIt

/-! Visits to INTER and TO phases. -/

namespace Verif.Engine
open Verif.Spec

variable {π : Type}

/-- The phase type: TO or INTER. -/
def itType (isTo : Bool) : PType := if isTo then .to_ else .inter

theorem itType_ne (isTo : Bool) : itType isTo ≠ .from_ := by cases isTo <;> simp [itType]

/-- Condition under which the error branch of an encoding phase drops exactly one datum. -/
def ISafe (isTo : Bool) (s : Static π) (Rs : List (Rules Datum (List Datum))) (inp : List Datum) : Prop :=
  isTo = true → misses (tokens Rs inp) = 0 ∨ ∀ r ∈ ruleAt Rs s.codecn, r.1.length ≤ 1

/-- Control after a decision. -/
def ItCtl (t : PType) (ctl : Ctl) : Prop := ctl = .goto .begin ∨ ctl = .goto t.outer ∨ ctl = .nextBegin

/-- `inter_deadend` and `to_deadend` when there is a match. -/
theorem it_dead_hit (isTo : Bool) {s : Static π} {Rs : List (Rules Datum (List Datum))} (hT : ITables s Rs)
    {l : Loc π} {u fut : List Datum} (hd : IDead s Rs l u fut) (hm : l.ph.fMatch = true) :
    ∃ l' ctl, LReach s (itType isTo).dead l l' ctl ∧ ItCtl (itType isTo) ctl ∧ ∀ isTo', IDecide isTo' s Rs l l' fut := by
  obtain ⟨m, b, h1, h2, h3, h4, h5⟩ := hd.ismatch hm
  have hgb : GoodData b := (hT.good _ hd.idx _ (lookup_mem (longest_some h1).2.2)).2.2
  have hbne : l.ph.matchData ≠ [] := by rw [h2]; exact hgb.1
  have hf := Queue.listFree_ok hd.prevOk l.ph.bak
  have hq := Queue.pushAll_ok hd.qOk b
  have hfm : firstMatch Rs (nonEmpty l.prev.items ++ fut) = some (m, b) :=
    firstMatch_at hd.idx hd.earlier (by rw [hd.dec, h1])
  have hmle : m ≤ (nonEmpty l.prev.items).length := by
    have := (longest_some h1).2.1
    have := hd.pre.length_le
    omega
  generalize hl' : emitMatch s { l with ph := { l.ph with fPending := false, fLoop := false } } false = l'
  have hl'' : l' = { l with
      prev := l.prev.listFree l.ph.bak
      ph := ({ l.ph with
        fPending := false, fLoop := false, q := l.ph.q.pushAll b, curr := 0, fMatch := false }).reset s } := by
    rw [← hl']
    have hbne' : b ≠ [] := hgb.1
    simp only [emitMatch, h2, if_pos hbne', Bool.false_eq_true, if_false]
  have hdecide : ∀ isTo', IDecide isTo' s Rs l l' fut := by
    intro isTo'
    rw [hl'']
    refine ⟨⟨⟨hf.1, ?_, by have := hd.idx; simp only [Ph.reset]; omega, rfl, ?_, by simp [Ph.reset], by simp, ?_, ?_, ?_⟩, ?_, ?_, ?_⟩,
        rfl, rfl, rfl, rfl, .inl ⟨.hit b, ?_, ?_, ?_, ?_, ?_⟩⟩
    · simpa [Ph.reset] using hq.1
    · simp only [hf.2]
      intro e he; exact hd.bytes e (List.mem_of_mem_drop he)
    · intro j hj; simp [Ph.reset] at hj
    · intro _; rfl
    · intro h; simp [Ph.reset] at h
    · simp [Ph.reset]
    · simp [Ph.reset, Verif.Engine.walk]
    · simp [Ph.reset]
    · simp only [hf.2]
      rw [tokens_hit hfm, h5, List.drop_append_of_le_length hmle]
    · cases isTo' <;> simp [Ph.reset, dropMisses, passMisses]
    · cases isTo' <;> simpa [dropMisses, passMisses] using hgb.2
    · cases isTo' <;> simp [misses]
    · unfold padCount
      simp only [Ph.reset, hf.2, hm, Bool.false_eq_true, if_false, if_true]
      exact empties_drop_pred _ _
  cases isTo with
  | true =>
    refine ⟨l', .nextBegin, .one rfl ?_, .inr (.inr rfl), hdecide⟩
    simp only [itType, if_true, PType.dead, localStep, toDead, hm]
    rw [← hl']; simp only [hm]
  | false =>
    refine ⟨l', .goto .begin, .one rfl ?_, .inl rfl, hdecide⟩
    simp only [itType, Bool.false_eq_true, if_false, PType.dead, localStep, interDead, hm, if_true]
    rw [← hl']; simp only [hm]

/-- `inter_deadend` and `to_deadend` when there is no match and another codec. -/
theorem it_dead_next (isTo : Bool) {s : Static π} {l : Loc π} (hm : l.ph.fMatch = false) (hi : l.ph.index < s.codecn) :
    ∃ l', LReach s (itType isTo).dead l l' (.goto (itType isTo).outer) ∧ Same l l' ∧ l'.ph.curr = 0 ∧
      l'.ph.index = l.ph.index + 1 ∧ l'.ph.fMatch = false ∧ l'.prev = l.prev ∧ l'.ph.st = 0 ∧ l'.ph.fLoop = false ∧
      l'.ph.fPending = false := by
  generalize hl' : ({ l with ph := { l.ph with
    fPending := false, fLoop := false, index := l.ph.index + 1, st := 0,
    status := (s.codecs (l.ph.index + 1)).status 0, curr := 0 } } : Loc π) = l'
  have hreach : LReach s (itType isTo).dead l l' (.goto (itType isTo).outer) := by
    cases isTo with
    | true =>
      refine .one rfl ?_
      simp only [itType, if_true, PType.dead, PType.outer, localStep, toDead, hm, if_pos hi,
        Bool.false_eq_true, if_false]
      rw [← hl']; simp only [hm]; rfl
    | false =>
      refine .one rfl ?_
      simp only [itType, PType.dead, PType.outer, localStep, interDead, hm, if_pos hi,
        Bool.false_eq_true, if_false]
      rw [← hl']; simp only [hm]; rfl
  subst hl'
  exact ⟨_, hreach, ⟨rfl, rfl, rfl, rfl, rfl, rfl, rfl, by unfold padCount; simp [hm]⟩, rfl, rfl, hm, rfl, rfl, rfl, rfl⟩

/-- The next codec starts, if it is a table. -/
theorem dead_next_inv {s : Static π} {Rs : List (Rules Datum (List Datum))} {l l' : Loc π} {u fut : List Datum} (hd : IDead s Rs l u fut)
    (hm : l.ph.fMatch = false) (hs : Same l l') (h1 : l'.ph.curr = 0) (h2 : l'.ph.index = l.ph.index + 1) (h3 : l'.ph.fMatch = false)
    (h4 : l'.prev = l.prev) (h5 : l'.ph.st = 0) (h6 : l'.ph.fLoop = false) (h7 : l'.ph.fPending = false) (hi : l.ph.index + 1 < Rs.length) :
    IInv s Rs l' [] fut := by
  have hnone := hd.unmatched hm
  refine ⟨⟨by rw [h4]; exact hd.prevOk, by rw [hs.q]; exact hd.qOk, by rw [h2]; exact hi, h6, by rw [h4]; exact hd.bytes, by rw [h1]; simp,
    by simp, ?_, ?_, ?_⟩, ?_, ?_, ?_⟩
  · intro j hj
    rw [h2] at hj
    rw [h4]
    by_cases hji : j = l.ph.index
    · subst hji; rw [hd.dec, hnone]
    · exact hd.earlier j (by omega)
  · intro _; rfl
  · intro h; rw [h3] at h; simp at h
  · rw [h1]; simp
  · rw [h5]; simp [Verif.Engine.walk]
  · rw [h7]; simp

/-- `inter_deadend` and `to_deadend`. -/
theorem it_dead (isTo : Bool) {s : Static π} {Rs : List (Rules Datum (List Datum))} (hT : ITables s Rs)
    (hfull : Rs.length = s.codecn + 1)
    {l : Loc π} {u fut : List Datum} (hd : IDead s Rs l u fut)
    (hsafe : ISafe isTo s Rs (nonEmpty l.prev.items ++ fut)) :
    (∃ l' ctl, LReach s (itType isTo).dead l l' ctl ∧ ItCtl (itType isTo) ctl ∧ IDecide isTo s Rs l l' fut) ∨
    (∃ l', LReach s (itType isTo).dead l l' (.goto (itType isTo).outer) ∧ IInv s Rs l' [] fut ∧ Same l l' ∧
      l'.ph.curr = 0 ∧ l'.ph.index = l.ph.index + 1 ∧ l.ph.index < s.codecn ∧ l.ph.fMatch = false ∧
      l'.ph.fMatch = false ∧ l'.prev = l.prev) := by
  cases hm : l.ph.fMatch with
  | true =>
    left
    obtain ⟨l', ctl, k1, k2, k3⟩ := it_dead_hit isTo hT hd hm
    exact ⟨l', ctl, k1, k2, k3 isTo⟩
  | false =>
    have hnone := hd.unmatched hm
    by_cases hi : l.ph.index < s.codecn
    · right
      obtain ⟨l', k1, k2, k3, k4, k5, k6, k7, k8, k9⟩ := it_dead_next (s := s) isTo hm hi
      exact ⟨l', k1, dead_next_inv hd hm k2 k3 k4 k5 k6 k7 k8 k9 (by omega), k2, k3, k4, hi, rfl, k5, k6⟩
    · left
      have hidx : l.ph.index = s.codecn := by have := hd.idx; omega
      have hfm : firstMatch Rs (nonEmpty l.prev.items ++ fut) = none := by
        apply firstMatch_none_at
        intro j hj
        rw [hfull] at hj
        by_cases hji : j = l.ph.index
        · subst hji; rw [hd.dec, hnone]
        · exact hd.earlier j (by omega)
      cases isTo with
      | true =>
        rcases hsafe rfl with hs | hs
        · exfalso
          obtain ⟨a, x, hax⟩ := List.exists_cons_of_ne_nil hd.ne
          rw [hax, List.cons_append] at hfm hs
          rw [tokens_miss hfm] at hs
          simp [misses] at hs
        · rw [← hidx] at hs
          have hlen := hd.single hm hs
          obtain ⟨a, ha⟩ := List.length_eq_one_iff.1 hlen
          have hall := nonEmpty_take_drop l.prev.items l.ph.curr
          rw [ha, List.singleton_append] at hall
          have hf := Queue.listFree_ok hd.prevOk (l.ph.curr + 1)
          rw [hall, List.cons_append] at hfm
          generalize hl' : ({ l with
            oerr := l.oerr + 1
            prev := l.prev.listFree (l.ph.curr + 1)
            ph := { ({ l.ph with fPending := false, fLoop := false }).reset s with bak := 0, curr := 0 } }
              : Loc π) = l'
          refine ⟨l', .goto .toOuter, .one rfl ?_, .inr (.inl rfl), ?_⟩
          · simp only [itType, if_true, PType.dead, localStep, toDead, hm, if_neg hi, Bool.false_eq_true,
              if_false]
            rw [← hl']; simp only [hm]; rfl
          · subst hl'
            have hfi : (l.prev.listFree (l.ph.curr + 1)).items = l.prev.items.drop l.ph.curr := hf.2
            refine ⟨⟨⟨hf.1, hd.qOk, by simp only [Ph.reset]; omega, rfl, ?_, by simp [Ph.reset], by simp, ?_, ?_, ?_⟩,
              ?_, ?_, ?_⟩, rfl, rfl, rfl, rfl, .inl ⟨.miss a, ?_, ?_, ?_, ?_, ?_⟩⟩
            · simp only [hfi]
              intro e he; exact hd.bytes e (List.mem_of_mem_drop he)
            · intro j hj; simp [Ph.reset] at hj
            · intro _; rfl
            · intro h; simp [Ph.reset, hm] at h
            · simp [Ph.reset]
            · simp [Ph.reset, Verif.Engine.walk]
            · simp [Ph.reset]
            · simp only [hfi]
              rw [hall, List.cons_append, tokens_miss hfm]
            · simp [Ph.reset, dropMisses, Queue.pushAll]
            · simp [dropMisses]
            · simp [misses]
            · unfold padCount
              simp only [Ph.reset, hfi, hm, Bool.false_eq_true, if_false]
              have := empties_drop_le l.prev.items l.ph.curr
              omega
      | false =>
        cases hitems : l.prev.items with
        | nil => have := hd.ne; rw [hitems] at this; simp at this
        | cons d ds =>
          have htail : l.prev.tail = ds.length + 1 := by
            have := hd.prevOk; unfold Queue.Ok at this; rw [this, hitems]; rfl
          have hq := Queue.push_ok hd.qOk d
          generalize hl' : ({ l with
            prev := ⟨ds, l.prev.tail - 1⟩
            ph := ({ l.ph with fPending := false, fLoop := false, curr := 0, q := l.ph.q.push d }).reset s }
              : Loc π) = l'
          refine ⟨l', .nextBegin, .one rfl ?_, .inr (.inr rfl), ?_⟩
          · simp only [itType, PType.dead, localStep, interDead, hm, if_neg hi, Bool.false_eq_true,
              if_false, hitems]
            rw [← hl']; simp only [hm]
          · subst hl'
            have hbytes : ∀ e ∈ d :: ds, IsBytes e := by rw [← hitems]; exact hd.bytes
            refine ⟨⟨⟨by simp [Queue.Ok, htail], by simpa [Ph.reset] using hq.1, by simp only [Ph.reset]; omega, rfl, ?_,
              by simp [Ph.reset], by simp, ?_, ?_, ?_⟩, ?_, ?_, ?_⟩, rfl, rfl, rfl, rfl, ?_⟩
            · intro e he; exact hbytes e (by simp only at he; simp [he])
            · intro j hj; simp [Ph.reset] at hj
            · intro _; rfl
            · intro h; simp [Ph.reset, hm] at h
            · simp [Ph.reset]
            · simp [Ph.reset, Verif.Engine.walk]
            · simp [Ph.reset]
            · by_cases hdne : d = []
              · right
                subst hdne
                refine ⟨rfl, by simp [Ph.reset, Queue.pushAll], ?_, rfl, ?_⟩
                · simp only [hitems, nonEmpty_cons_nil]
                · unfold padCount
                  simp only [Ph.reset, hm, hitems, Bool.false_eq_true, if_false, empties, if_true]
                  omega
              · left
                rw [hitems, nonEmpty_cons hdne, List.cons_append] at hfm
                refine ⟨.miss d, ?_, by simp [Ph.reset, Queue.pushAll, passMisses], ?_, by simp, ?_⟩
                · rw [hitems, nonEmpty_cons hdne, List.cons_append, tokens_miss hfm]
                · simp only [Bool.false_eq_true, if_false, passMisses]
                  intro e he
                  simp at he
                  subst he
                  exact ⟨hdne, hbytes _ (by simp)⟩
                · unfold padCount
                  simp only [Ph.reset, hm, hitems, Bool.false_eq_true, if_false, empties]
                  omega

theorem rank_index {c i N k k' : Nat} (h : i < c) (hk' : k' ≤ N) :
    (c - (i + 1)) * (N + 1) + k' < (c - i) * (N + 1) + k := by
  have : c - i = (c - (i + 1)) + 1 := by omega
  rw [this, Nat.succ_mul]
  omega

/-- A visit to an INTER or TO phase. -/
theorem it_visit (isTo : Bool) {s : Static π} {Rs : List (Rules Datum (List Datum))} (hT : ITables s Rs)
    (hfull : Rs.length = s.codecn + 1)
    (l : Loc π) (u fut : List Datum) (hi : IInv s Rs l u fut)
    (hsafe : ISafe isTo s Rs (nonEmpty l.prev.items ++ fut)) :
    (∃ l' u' ctl, LReach s (itType isTo).outer l l' ctl ∧ (ctl = .goto .leave ∨ ctl = .nextBegin) ∧
      IInv s Rs l' u' fut ∧ Same l l' ∧ rankV s l' ≤ rankV s l ∧
      (l.ph.curr < l.prev.items.length → rankV s l' < rankV s l) ∧
      (ctl = .nextBegin → l.ph.curr < l.prev.items.length)) ∨
    (∃ l' ctl, LReach s (itType isTo).outer l l' ctl ∧ ItCtl (itType isTo) ctl ∧
      IDecide isTo s Rs l l' fut) := by
  by_cases hlt : l.ph.curr < l.prev.items.length
  · rcases it_step hT (itType_ne isTo) hi hlt with
      ⟨l1, h1, h2, h3, h4, h5, h6, h7, h8⟩ |
      ⟨l1, u1, ctl, h1, h2, h3, h4, h5, h6, h7⟩ | h
    · have hr1 : rankV s l1 < rankV s l := by
        unfold rankV; rw [h4, h5, h6, h7]; omega
      cases isTo with
      | false =>
        left
        refine ⟨l1, u, .nextBegin, .cons rfl h1 (.one rfl ?_), .inr rfl, h3, h8, by omega, fun _ => hr1, fun _ => hlt⟩
        simp only [itType, Bool.false_eq_true, if_false, PType.sw, localStep, interSw, h2]
      | true =>
        have hsw : localStep s (itType true).sw l1 = (l1, .goto (itType true).outer) := by
          simp only [itType, if_true, PType.sw, localStep, toSw, h2, PType.outer]
        have hsafe' : ISafe true s Rs (nonEmpty l1.prev.items ++ fut) := by rw [h4]; exact hsafe
        rcases it_visit true hT hfull l1 u fut h3 hsafe' with
          ⟨l', u', ctl, k1, k2, k3, k4, k5, k6, _⟩ | ⟨l', ctl, k1, k2, k3⟩
        · left
          exact ⟨l', u', ctl, .cons rfl h1 (.cons rfl hsw k1), k2, k3, h8.trans k4, by omega,
            fun _ => by omega, fun _ => hlt⟩
        · right
          exact ⟨l', ctl, .cons rfl h1 (.cons rfl hsw k1), k2, k3.of_same h8⟩
    · have hsafe' : ISafe isTo s Rs (nonEmpty l1.prev.items ++ fut) := by rw [h2.ne]; exact hsafe
      have hprod : (if l1.ph.fMatch then 0 else (s.codecn - l1.ph.index) * (l1.prev.items.length + 1)) ≤
          (if l.ph.fMatch then 0 else (s.codecn - l.ph.index) * (l.prev.items.length + 1)) := by
        rcases h6 with h6 | ⟨_, _, h6⟩
        · rw [h3, h6]
          cases hf : l.ph.fMatch with
          | true => rw [h5 hf]; simp
          | false => cases l1.ph.fMatch <;> simp
        · rw [h6]; simp
      have hr1 : rankV s l1 ≤ rankV s l := by
        unfold rankV; rw [h4]; omega
      rcases h7 with ⟨rfl, h7, h8⟩ | ⟨rfl, h7⟩
      · have hule : u1.length ≤ (nonEmpty l.prev.items).length := by
          rw [← h2.ne]; exact h7.pre.length_le
        have hne := h2.ne
        rcases it_visit isTo hT hfull l1 u1 fut h7 hsafe' with
          ⟨l', u', ctl, k1, k2, k3, k4, k5, k6, _⟩ | ⟨l', ctl, k1, k2, k3⟩
        · left
          refine ⟨l', u', ctl, h1.trans k1, k2, k3, h2.trans k4, by omega, fun _ => ?_, fun _ => hlt⟩
          rcases h6 with h6 | ⟨h6, h6', h6''⟩
          · have : rankV s l1 < rankV s l := by
              unfold rankV; rw [h4]; omega
            omega
          · have := k6 (by omega)
            omega
        · right
          exact ⟨l', ctl, h1.trans k1, k2, k3.of_same h2⟩
      · rcases it_dead isTo hT hfull h7 hsafe' with ⟨l', ctl, k1, k2, k3⟩ |
          ⟨l2, k1, k2, k3, k4, k5, k6, k7, k8, k9⟩
        · right
          exact ⟨l', ctl, h1.trans k1, k2, k3.of_same h2⟩
        · have hN : l1.prev.items.length = l.prev.items.length := by
            rcases h6 with h6 | ⟨_, _, h6⟩
            · exact h6
            · rw [k7] at h6; simp at h6
          have hf : l.ph.fMatch = false := by
            cases hf : l.ph.fMatch with
            | false => rfl
            | true => rw [h5 hf] at k7; simp at k7
          have hr2 : rankV s l2 < rankV s l := by
            unfold rankV
            rw [k8, hf, k9, k5, h3, hN, k4]
            simp only [Bool.false_eq_true, if_false]
            exact rank_index (by omega) (by omega)
          have hsafe2 : ISafe isTo s Rs (nonEmpty l2.prev.items ++ fut) := by rw [k9]; exact hsafe'
          rcases it_visit isTo hT hfull l2 [] fut k2 hsafe2 with
            ⟨l', u', ctl, j1, j2, j3, j4, j5, j6, _⟩ | ⟨l', ctl, j1, j2, j3⟩
          · left
            exact ⟨l', u', ctl, h1.trans (k1.trans j1), j2, j3, h2.trans (k3.trans j4), by omega,
              fun _ => by omega, fun _ => hlt⟩
          · right
            exact ⟨l', ctl, h1.trans (k1.trans j1), j2, j3.of_same (h2.trans k3)⟩
    · right
      obtain ⟨l1, h1, h2⟩ := h
      exact ⟨l1, _, h1, .inr (.inr rfl), h2 isTo⟩
  · left
    refine ⟨l, u, .goto .leave, .one (itType isTo).outer_local ?_, .inl rfl, hi, Same.refl l, Nat.le_refl _,
      fun h => absurd h hlt, by simp⟩
    rw [it_outer_eq s l (itType_ne isTo)]
    simp only [itOuter, Queue.hasNext, decide_eq_false hlt]; rfl
termination_by (s.codecn - l.ph.index,
  2 * ((nonEmpty l.prev.items).length - u.length) + (l.prev.items.length - l.ph.curr))
decreasing_by
  all_goals simp_wf
  · rw [h7, h4]; right; omega
  · rw [h3, hne]; right; rcases h6 with h6 | ⟨h6, h6', _⟩ <;> omega
  · left; omega

/-- Flushing a pending INTER or TO phase. -/
theorem it_flush (isTo : Bool) {s : Static π} {Rs : List (Rules Datum (List Datum))} (hT : ITables s Rs)
    (hfull : Rs.length = s.codecn + 1)
    (l : Loc π) (u : List Datum) (hi : IInv s Rs l u [])
    (hend : l.ph.curr = l.prev.items.length) (hp : l.ph.fPending = true)
    (hsafe : ISafe isTo s Rs (nonEmpty l.prev.items)) :
    (∃ l' u' ctl, LReach s (itType isTo).dead l l' ctl ∧ (ctl = .goto .leave ∨ ctl = .nextBegin) ∧
      IInv s Rs l' u' [] ∧ Same l l' ∧ rankV s l' < rankV s l) ∨
    (∃ l' ctl, LReach s (itType isTo).dead l l' ctl ∧ ItCtl (itType isTo) ctl ∧
      IDecide isTo s Rs l l' []) := by
  have hu : u ≠ [] := hi.pend.1 hp
  have hall : nonEmpty l.prev.items = u := by
    have := hi.read; rwa [hend, List.take_length] at this
  have hd : IDead s Rs l u [] := by
    refine ⟨hi.toICore, by rw [hall, List.append_nil], by rw [hall]; exact hu, ?_⟩
    intro _ hs
    exact (walk_multi (hT.rep _ hi.idx) (hT.good _ hi.idx) hu hi.walk hs).elim
  rcases it_dead isTo hT hfull hd (by rw [List.append_nil]; exact hsafe) with ⟨l', ctl, k1, k2, k3⟩ |
      ⟨l2, k1, k2, k3, k4, k5, k6, k7, k8, k9⟩
  · right; exact ⟨l', ctl, k1, k2, k3⟩
  · have hr2 : rankV s l2 < rankV s l := by
      unfold rankV
      rw [k8, k7, k9, k5, k4]
      simp only [Bool.false_eq_true, if_false]
      exact rank_index (by omega) (by omega)
    rcases it_visit isTo hT hfull l2 [] [] k2 (by rw [k9, List.append_nil]; exact hsafe) with
        ⟨l', u', ctl, j1, j2, j3, j4, j5, j6, _⟩ | ⟨l', ctl, j1, j2, j3⟩
    · left
      exact ⟨l', u', ctl, k1.trans j1, j2, j3, k3.trans j4, by omega⟩
    · right
      exact ⟨l', ctl, k1.trans j1, j2, j3.of_same k3⟩

end Verif.Engine
