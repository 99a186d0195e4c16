import Verif.Proofs.EngineCall

/-! Table phases as a kind of phase. -/

namespace Verif.Engine
open Verif.Spec

variable {π : Type}

/-! ### Facts about the specification -/

theorem flatten_congr {a b : List Datum} (h : nonEmpty a = nonEmpty b) : a.flatten = b.flatten := by
  rw [← flatten_nonEmpty a, h, flatten_nonEmpty]

theorem out_congr (sp : Phase) {a b : List Datum} (h : nonEmpty a = nonEmpty b) : sp.out a = sp.out b := by
  cases sp with
  | decode Rs => simp only [Phase.out, flatten_congr h]
  | rewrite Rs => simp only [Phase.out, h]
  | encode Rs => simp only [Phase.out, h]

theorem inErrors_congr (sp : Phase) {a b : List Datum} (h : nonEmpty a = nonEmpty b) :
    sp.inErrors a = sp.inErrors b := by
  cases sp with
  | decode Rs => simp only [Phase.inErrors, flatten_congr h]
  | rewrite Rs => rfl
  | encode Rs => rfl

theorem outErrors_congr (sp : Phase) {a b : List Datum} (h : nonEmpty a = nonEmpty b) :
    sp.outErrors a = sp.outErrors b := by
  cases sp with
  | decode Rs => rfl
  | rewrite Rs => rfl
  | encode Rs => simp only [Phase.outErrors, h]

/-- Number of tokens a phase cuts its input into. -/
def tokCount : Phase → List Datum → Nat
  | .decode Rs, ds => (tokens Rs ds.flatten).length
  | .rewrite Rs, ds => (tokens Rs (nonEmpty ds)).length
  | .encode Rs, ds => (tokens Rs (nonEmpty ds)).length

theorem tokCount_congr (sp : Phase) {a b : List Datum} (h : nonEmpty a = nonEmpty b) :
    tokCount sp a = tokCount sp b := by
  cases sp with
  | decode Rs => simp only [tokCount, flatten_congr h]
  | rewrite Rs => simp only [tokCount, h]
  | encode Rs => simp only [tokCount, h]

theorem dropMisses_cons {α γ : Type} (t : Tok α (List γ)) (ts : List (Tok α (List γ))) :
    dropMisses (t :: ts) = dropMisses [t] ++ dropMisses ts := by
  cases t <;> simp [dropMisses]

theorem passMisses_cons {γ : Type} (t : Tok γ (List γ)) (ts : List (Tok γ (List γ))) :
    passMisses (t :: ts) = passMisses [t] ++ passMisses ts := by
  cases t <;> simp [passMisses]

theorem misses_cons {α β : Type} (t : Tok α β) (ts : List (Tok α β)) :
    misses (t :: ts) = misses [t] + misses ts := by
  cases t <;> simp [misses]; omega

theorem firstMatch_mem {α β : Type} [DecidableEq α] {Rs : List (Rules α β)} {x : List α} {m : Nat} {b : β}
    (h : firstMatch Rs x = some (m, b)) : ∃ R ∈ Rs, ∃ r ∈ R, r.2 = b := by
  induction Rs with
  | nil => simp [firstMatch] at h
  | cons R Rs ih =>
    simp only [firstMatch] at h
    split at h
    · rename_i r hr
      cases h
      exact ⟨R, by simp, _, lookup_mem (longest_some hr).2.2, rfl⟩
    · obtain ⟨R', h1, h2⟩ := ih h
      exact ⟨R', by simp [h1], h2⟩

theorem tokens_head_hit {α β : Type} [DecidableEq α] {Rs : List (Rules α β)} {x : List α} {b : β}
    {ts : List (Tok α β)} (h : tokens Rs x = .hit b :: ts) : ∃ R ∈ Rs, ∃ r ∈ R, r.2 = b := by
  cases x with
  | nil => simp at h
  | cons a x =>
    cases hf : firstMatch Rs (a :: x) with
    | none => rw [tokens_miss hf] at h; simp at h
    | some r =>
      obtain ⟨m, b'⟩ := r
      rw [tokens_hit hf] at h
      simp at h
      rw [← h.1]
      exact firstMatch_mem hf

/-! ### Tables -/

theorem PhaseTables.from {s : Static π} {Rs : List (Rules Nat (List Datum))}
    (h : PhaseTables s (.decode Rs)) : FTables s Rs := by
  obtain ⟨_, h2, h3, h4⟩ := h
  refine ⟨h2, ?_, ?_⟩
  · intro j hj
    have hj' : j < Rs.length := by omega
    have := h3 j hj'
    simpa [ruleAt, List.getD_eq_getElem?_getD, List.getElem?_eq_getElem hj'] using this
  · intro j hj r hr
    have hj' : j < Rs.length := by omega
    simp [ruleAt, List.getD_eq_getElem?_getD, List.getElem?_eq_getElem hj'] at hr
    exact (h4 _ (List.getElem_mem hj') r hr).2.1

theorem itables_of {s : Static π} {Rs : List (Rules Datum (List Datum))}
    (h2 : Rs.length = s.codecn + 1)
    (h3 : ∀ j (h : j < Rs.length), Represents (s.codecs j) (symbolRules Rs[j]))
    (h4 : ∀ R ∈ Rs, ∀ r ∈ R, r.1 ≠ [] ∧ (∀ d ∈ r.1, d ≠ [] ∧ IsBytes d) ∧ GoodData r.2) :
    ITables s Rs := by
  refine ⟨Nat.le_of_eq h2, ?_, ?_⟩
  · intro j hj
    have hj' : j < Rs.length := by omega
    have := h3 j hj'
    simpa [ruleAt, List.getD_eq_getElem?_getD, List.getElem?_eq_getElem hj'] using this
  · intro j hj r hr
    have hj' : j < Rs.length := by omega
    simp [ruleAt, List.getD_eq_getElem?_getD, List.getElem?_eq_getElem hj'] at hr
    exact h4 _ (List.getElem_mem hj') r hr

/-! ### Invariant -/

/-- A phase that still has the input `rem` to convert (part of it may have been read) and will receive
`fut` afterwards. -/
def PInv (s : Static π) (sp : Phase) (l : Loc π) (rem fut : List Datum) : Prop :=
  match sp with
  | .decode Rs => ∃ u, FInv s Rs l u (outerRest l) fut.flatten ∧ rem.flatten = u ++ outerRest l ∧
      FSafe Rs l rem.flatten fut.flatten ∧ (l.prev.items = [] → l.ph.consumed = 0)
  | .rewrite Rs => (∃ u, IInv s Rs l u (nonEmpty fut)) ∧ nonEmpty rem = nonEmpty l.prev.items
  | .encode Rs => (∃ u, IInv s Rs l u (nonEmpty fut)) ∧ nonEmpty rem = nonEmpty l.prev.items ∧
      ISafe true s Rs (nonEmpty rem ++ nonEmpty fut)

/-- Empty data counted for termination. -/
def pads (sp : Phase) (l : Loc π) : Nat :=
  match sp with
  | .rewrite _ => padCount l
  | _ => 0

/-- Is it a decoding phase? -/
def isDecode : Phase → Bool
  | .decode _ => true
  | _ => false

/-- Behaviour of a table phase. -/
def tableBeh (π : Type) (sp : Phase) : Beh π where
  out := sp.out
  inE := sp.inErrors
  outE := sp.outErrors
  toks := tokCount sp
  fin := fun _ _ => True
  congr := fun h => ⟨out_congr sp h, inErrors_congr sp h, outErrors_congr sp h, tokCount_congr sp h, rfl⟩

/-- Invariant of a table phase. -/
def TInv (s : Static π) (sp : Phase) (F : Beh π) (l : Loc π) (rem fut : List Datum) : Prop :=
  F = tableBeh π sp ∧ PInv s sp l rem fut

/-- A visit that decided nothing. -/
abbrev TQuiet (s : Static π) (sp : Phase) (l l' : Loc π) (rem fut : List Datum) : Prop :=
  Quiet (TInv s sp) (isDecode sp) (pads sp) (rankV s) (tableBeh π sp) l l' rem fut

/-- A visit that converted a piece of the input. -/
abbrev TDecide (s : Static π) (sp : Phase) (l l' : Loc π) (rem fut rem' em : List Datum) : Prop :=
  Decide (TInv s sp) (isDecode sp) (pads sp) (tableBeh π sp) l l' rem fut (tableBeh π sp) rem' em

theorem pinv_qok {s : Static π} {sp : Phase} {l : Loc π} {rem fut : List Datum} (h : PInv s sp l rem fut) :
    l.ph.q.Ok ∧ l.prev.Ok ∧ l.ph.curr ≤ l.prev.items.length := by
  cases sp with
  | decode Rs => obtain ⟨u, h, _⟩ := h; exact ⟨h.qOk, h.prevOk, h.currle⟩
  | rewrite Rs => obtain ⟨⟨u, h⟩, _⟩ := h; exact ⟨h.qOk, h.prevOk, h.currle⟩
  | encode Rs => obtain ⟨⟨u, h⟩, _⟩ := h; exact ⟨h.qOk, h.prevOk, h.currle⟩

theorem FDecide.decide {s : Static π} {Rs : List (Rules Nat (List Datum))} {l l' : Loc π}
    {rem fut : List Datum} (hs : PhaseTables s (.decode Rs))
    (h : FDecide s Rs l l' rem.flatten fut.flatten) (hsafe : FSafe Rs l rem.flatten fut.flatten) :
    ∃ rem' em, TDecide s (.decode Rs) l l' rem fut rem' em := by
  obtain ⟨⟨t, rest', h1, h2, h3, h4, h5⟩, h6, h7, h7', h8, h9⟩ := h
  have hfl : ∀ (x : List Nat), ([x] : List Datum).flatten = x := by simp
  have hem : ∀ d ∈ dropMisses [t], d ≠ [] ∧ IsBytes d := by
    cases t with
    | miss a => simp [dropMisses]
    | hit b =>
      obtain ⟨R, hR, r, hr, rfl⟩ := tokens_head_hit h1
      simpa [dropMisses] using ((hs.2.2.2 R hR r hr).2).2
  refine ⟨[rest'], dropMisses [t], ⟨rfl, [], ?_, ?_, ?_, fun h => absurd h h7'⟩, h4, fun d hd => (hem d hd).2, h9,
    by simp [isDecode], fun _ => h7, ?_, ?_, ?_, ?_, rfl, ?_⟩
  · rw [← h3]; exact h2
  · rw [hfl, ← h3]; rfl
  · rw [hfl]
    rcases hsafe with hs | hs
    · left; rw [h1, misses_cons] at hs; omega
    · right; omega
  · simp only [tableBeh, Phase.inErrors, List.flatten_append, hfl]
    rw [h1, misses_cons]; omega
  · simp only [tableBeh, Phase.out, List.flatten_append, hfl]
    rw [h1, dropMisses_cons, nonEmpty_append]
  · simp only [tableBeh, Phase.inErrors, List.flatten_append, hfl]
    rw [h1, misses_cons, h5]; omega
  · simp only [tableBeh, Phase.outErrors]; rw [h6]
  · left
    refine ⟨?_, by simp [Verif.Engine.pads]⟩
    rw [empties_zero (fun d hd => (hem d hd).1)]
    simp only [tableBeh, tokCount, List.flatten_append, hfl]
    rw [h1]; simp

theorem IDecide.rewrite {s : Static π} {Rs : List (Rules Datum (List Datum))} {l l' : Loc π}
    {rem fut : List Datum} (hrem : nonEmpty rem = nonEmpty l.prev.items)
    (h : IDecide false s Rs l l' (nonEmpty fut)) :
    ∃ rem' em, TDecide s (.rewrite Rs) l l' rem fut rem' em := by
  rcases h.ex with ⟨t, h1, h2, h3, h4, h5⟩ | ⟨_, h2, h3, h4, h5⟩
  · refine ⟨l'.prev.items, passMisses [t], ⟨rfl, ⟨[], h.inv⟩, rfl⟩, h2, fun d hd => (h3 d hd).2, h.head,
      fun _ => h.consumed, by simp [isDecode], Nat.le_refl _, ?_, ?_, ?_, rfl, .inl ⟨?_, h5⟩⟩
    · simp only [tableBeh, Phase.out, nonEmpty_append, hrem]
      rw [h1, passMisses_cons, nonEmpty_append]
    · simp only [tableBeh, Phase.inErrors]; rw [h.ierr]
    · simp only [tableBeh, Phase.outErrors]; rw [h4]; simp
    · rw [empties_zero (a := passMisses [t]) (fun d hd => (h3 d hd).1)]
      simp only [tableBeh, tokCount, nonEmpty_append, hrem]; rw [h1]; simp
  · refine ⟨l'.prev.items, [[]], ⟨rfl, ⟨[], h.inv⟩, rfl⟩, h2, ?_, h.head,
      fun _ => h.consumed, by simp [isDecode], Nat.le_refl _, ?_, ?_, ?_, rfl, .inr ⟨?_, h5, by simp [empties]⟩⟩
    · intro d hd; simp at hd; subst hd; intro b hb; simp at hb
    · simp only [tableBeh, Phase.out, nonEmpty_append, hrem, h3]
      rw [nonEmpty_cons_nil]; simp
    · simp only [tableBeh, Phase.inErrors]; rw [h.ierr]
    · simp only [tableBeh, Phase.outErrors]; rw [h4]
    · simp only [tableBeh, tokCount, nonEmpty_append, hrem, h3]

theorem IDecide.encode {s : Static π} {Rs : List (Rules Datum (List Datum))} {l l' : Loc π}
    {rem fut : List Datum} (hrem : nonEmpty rem = nonEmpty l.prev.items)
    (hsafe : ISafe true s Rs (nonEmpty rem ++ nonEmpty fut))
    (h : IDecide true s Rs l l' (nonEmpty fut)) :
    ∃ rem' em, TDecide s (.encode Rs) l l' rem fut rem' em := by
  rcases h.ex with ⟨t, h1, h2, h3, h4, h5⟩ | ⟨h1, _⟩
  · refine ⟨l'.prev.items, dropMisses [t], ⟨rfl, ⟨[], h.inv⟩, rfl, ?_⟩, h2, fun d hd => (h3 d hd).2, h.head,
      fun _ => h.consumed, by simp [isDecode], Nat.le_refl _, ?_, ?_, ?_, rfl, .inl ⟨?_, by simp [Verif.Engine.pads]⟩⟩
    · intro _
      rcases hsafe rfl with hs | hs
      · left; rw [hrem, h1, misses_cons] at hs; omega
      · right; exact hs
    · simp only [tableBeh, Phase.out, nonEmpty_append, hrem]
      rw [h1, dropMisses_cons, nonEmpty_append]
    · simp only [tableBeh, Phase.inErrors]; rw [h.ierr]
    · simp only [tableBeh, Phase.outErrors, nonEmpty_append, hrem]; rw [h1, misses_cons, h4]; simp; omega
    · rw [empties_zero (a := dropMisses [t]) (fun d hd => (h3 d hd).1)]
      simp only [tableBeh, tokCount, nonEmpty_append, hrem]; rw [h1]; simp
  · simp at h1

/-- A visit. -/
theorem phase_visit {s : Static π} {sp : Phase} (hs : PhaseTables s sp) {l : Loc π} {rem fut : List Datum}
    (h : PInv s sp l rem fut) :
    (∃ l' ctl, LReach s s.type.outer l l' ctl ∧ (ctl = .goto .leave ∨ ctl = .nextBegin) ∧
      TQuiet s sp l l' rem fut ∧ (l.ph.curr < l.prev.items.length → rankV s l' < rankV s l) ∧
      (ctl = .nextBegin → l.ph.curr < l.prev.items.length)) ∨
    (∃ l' ctl rem' em, LReach s s.type.outer l l' ctl ∧ DCtl s.type ctl ∧
      TDecide s sp l l' rem fut rem' em) := by
  cases sp with
  | decode Rs =>
    obtain ⟨u, h1, h2, h3, h3'⟩ := h
    rw [hs.1]
    rcases from_visit hs.from l u _ _ h1 rfl (by rw [← h2]; exact h3) with
      ⟨l', k1, k2⟩ | ⟨l', ctl, k1, k2, k3⟩
    · left
      have hrk := k2.rank
      have hor : outerRest l' = [] := by
        unfold outerRest
        have hc := k2.curr
        by_cases h0 : l'.ph.curr = 0
        · have : l'.prev.items = [] := by
            rw [k2.prev]; exact List.length_eq_zero_iff.1 (by omega)
          simp [h0, unread, this]
        · rw [if_neg h0, List.drop_of_length_le (by rw [k2.prev]; omega)]; rfl
      refine ⟨l', _, k1, .inl rfl, ⟨⟨rfl, rem.flatten, ?_, ?_, ?_, fun h => by
          rw [k2.prev] at h; rw [k2.cons0 h]; exact h3' h⟩, k2.q, k2.ierr, k2.oerr, k2.consumedHead,
        by simp [isDecode], fun _ => by rw [k2.prev]; exact Nat.le_refl _, by simp [Verif.Engine.pads], by omega⟩, fun hlt => by omega, by simp⟩
      · rw [hor, h2]; exact k2.inv
      · rw [hor]; simp
      · unfold FSafe at h3 ⊢; rw [k2.prev]; exact h3
    · right
      rw [← h2] at k3
      obtain ⟨rem', em, k4⟩ := k3.decide hs h3
      exact ⟨l', ctl, rem', em, k1, k2, k4⟩
  | rewrite Rs =>
    obtain ⟨⟨u, h1⟩, h2⟩ := h
    have hty : s.type = itType false := hs.1
    rw [hty]
    have hT := itables_of hs.2.1 hs.2.2.1 hs.2.2.2
    rcases it_visit false hT hs.2.1 l u _ h1 (by intro hh; simp at hh) with
      ⟨l', u', ctl, k1, k2, k3, k4, k5, k6, k7⟩ | ⟨l', ctl, k1, k2, k3⟩
    · left
      exact ⟨l', ctl, k1, k2, ⟨⟨rfl, ⟨u', k3⟩, by rw [h2, k4.ne]⟩, k4.q, k4.ierr, k4.oerr, k4.head,
        fun _ => k4.consumed, by simp [isDecode], k4.pads, k5⟩, k6, k7⟩
    · right
      obtain ⟨rem', em, k4⟩ := k3.rewrite h2
      exact ⟨l', ctl, rem', em, k1, k2, k4⟩
  | encode Rs =>
    obtain ⟨⟨u, h1⟩, h2, h3⟩ := h
    have hty : s.type = itType true := hs.1
    rw [hty]
    have hT := itables_of hs.2.1 hs.2.2.1 hs.2.2.2
    rcases it_visit true hT hs.2.1 l u _ h1 (by rw [← h2]; exact h3) with
      ⟨l', u', ctl, k1, k2, k3, k4, k5, k6, k7⟩ | ⟨l', ctl, k1, k2, k3⟩
    · left
      exact ⟨l', ctl, k1, k2, ⟨⟨rfl, ⟨u', k3⟩, by rw [h2, k4.ne], h3⟩, k4.q, k4.ierr, k4.oerr, k4.head,
        fun _ => k4.consumed, by simp [isDecode], by simp [Verif.Engine.pads], k5⟩, k6, k7⟩
    · right
      obtain ⟨rem', em, k4⟩ := k3.encode h2 h3
      exact ⟨l', ctl, rem', em, k1, k2, k4⟩

/-- Flushing a pending phase that will get no more input. -/
theorem phase_flush {s : Static π} {sp : Phase} (hs : PhaseTables s sp) {l : Loc π} {rem fut : List Datum}
    (h : PInv s sp l rem fut) (hf : nonEmpty fut = []) (hend : l.ph.curr = l.prev.items.length)
    (hp : l.ph.fPending = true) :
    (∃ l' ctl, LReach s s.type.dead l l' ctl ∧ (ctl = .goto .leave ∨ ctl = .nextBegin) ∧
      TQuiet s sp l l' rem fut ∧ rankV s l' < rankV s l) ∨
    (∃ l' ctl rem' em, LReach s s.type.dead l l' ctl ∧ DCtl s.type ctl ∧
      TDecide s sp l l' rem fut rem' em) := by
  have hff : fut.flatten = [] := by rw [← flatten_nonEmpty, hf]; rfl
  cases sp with
  | decode Rs =>
    obtain ⟨u, h1, h2, h3, h3'⟩ := h
    rw [hs.1]
    have hor0 : outerRest l = [] := by
      unfold outerRest
      by_cases h0 : l.ph.curr = 0
      · have : l.prev.items = [] := List.length_eq_zero_iff.1 (by omega)
        simp [h0, unread, this]
      · rw [if_neg h0, List.drop_of_length_le (by omega)]; rfl
    rw [hor0, hff] at h1
    rw [hor0, List.append_nil] at h2
    rw [hff] at h3
    rcases from_flush hs.from l u h1 hp (by rw [← h2]; exact h3) with
      ⟨l', k1, k2, k3⟩ | ⟨l', ctl, k1, k2, k3⟩
    · left
      have hor : outerRest l' = [] := by
        unfold outerRest
        have hc := k2.curr
        by_cases h0 : l'.ph.curr = 0
        · have : l'.prev.items = [] := by
            rw [k2.prev]; exact List.length_eq_zero_iff.1 (by omega)
          simp [h0, unread, this]
        · rw [if_neg h0, List.drop_of_length_le (by rw [k2.prev]; omega)]; rfl
      refine ⟨l', _, k1, .inl rfl, ⟨⟨rfl, rem.flatten, ?_, ?_, ?_, fun h => by
          rw [k2.prev] at h; rw [k2.cons0 h]; exact h3' h⟩, k2.q, k2.ierr, k2.oerr, k2.consumedHead,
        by simp [isDecode], fun _ => by rw [k2.prev]; exact Nat.le_refl _, by simp [Verif.Engine.pads], by omega⟩, k3⟩
      · rw [hor, h2, hff]; exact k2.inv
      · rw [hor]; simp
      · unfold FSafe at h3 ⊢; rw [k2.prev, hff]; exact h3
    · right
      rw [← h2, ← hff] at k3
      obtain ⟨rem', em, k4⟩ := k3.decide hs (by rw [hff]; exact h3)
      exact ⟨l', ctl, rem', em, k1, k2, k4⟩
  | rewrite Rs =>
    obtain ⟨⟨u, h1⟩, h2⟩ := h
    have hty : s.type = itType false := hs.1
    rw [hty]
    have hT := itables_of hs.2.1 hs.2.2.1 hs.2.2.2
    rw [hf] at h1
    rcases it_flush false hT hs.2.1 l u h1 hend hp (by intro hh; simp at hh) with
      ⟨l', u', ctl, k1, k2, k3, k4, k5⟩ | ⟨l', ctl, k1, k2, k3⟩
    · left
      exact ⟨l', ctl, k1, k2, ⟨⟨rfl, ⟨u', by rw [hf]; exact k3⟩, by rw [h2, k4.ne]⟩, k4.q, k4.ierr, k4.oerr,
        k4.head, fun _ => k4.consumed, by simp [isDecode], k4.pads, by omega⟩, k5⟩
    · right
      rw [← hf] at k3
      obtain ⟨rem', em, k4⟩ := k3.rewrite h2
      exact ⟨l', ctl, rem', em, k1, k2, k4⟩
  | encode Rs =>
    obtain ⟨⟨u, h1⟩, h2, h3⟩ := h
    have hty : s.type = itType true := hs.1
    rw [hty]
    have hT := itables_of hs.2.1 hs.2.2.1 hs.2.2.2
    rw [hf] at h1
    rcases it_flush true hT hs.2.1 l u h1 hend hp (by rw [← h2]; rw [hf, List.append_nil] at h3; exact h3) with
      ⟨l', u', ctl, k1, k2, k3, k4, k5⟩ | ⟨l', ctl, k1, k2, k3⟩
    · left
      exact ⟨l', ctl, k1, k2, ⟨⟨rfl, ⟨u', by rw [hf]; exact k3⟩, by rw [h2, k4.ne], h3⟩, k4.q, k4.ierr, k4.oerr,
        k4.head, fun _ => k4.consumed, by simp [isDecode], by simp [Verif.Engine.pads], by omega⟩, k5⟩
    · right
      rw [← hf] at k3
      obtain ⟨rem', em, k4⟩ := k3.encode h2 h3
      exact ⟨l', ctl, rem', em, k1, k2, k4⟩

/-! ### Receiving input -/

theorem unread_append {ds ds' : List Datum} {k i : Nat} (h1 : 1 ≤ k) (h2 : k ≤ ds.length) :
    unread (ds ++ ds') k i = unread ds k i ++ ds'.flatten := by
  unfold unread
  rw [List.drop_append_of_le_length h2, List.flatten_append]
  have : (ds ++ ds').getD (k - 1) [] = ds.getD (k - 1) [] := by
    simp [List.getD_eq_getElem?_getD, List.getElem?_append_left (show k - 1 < ds.length by omega)]
  rw [this, List.append_assoc]

/-- Data appended to the queue move from the future to the present. -/
theorem pinv_append {s : Static π} {sp : Phase} {l l' : Loc π} {rem fut em fut' : List Datum}
    (h : PInv s sp l rem fut) (hfut : nonEmpty fut = nonEmpty em ++ nonEmpty fut')
    (hprev : l'.prev = l.prev.pushAll em) (hph : l'.ph = l.ph)
    (hhead : isDecode sp = true → l'.prevHeadLen = l.prevHeadLen)
    (hb : ∀ d ∈ em, IsBytes d)
    (hsafe : ∀ Rs, sp = .decode Rs → misses (tokens Rs (rem ++ fut).flatten) = 0 ∨
      (l.prev.items ++ em).length ≤ 1) :
    PInv s sp l' (rem ++ em) fut' := by
  obtain ⟨_, hpo, _⟩ := pinv_qok h
  obtain ⟨hq1, hq2⟩ := Queue.pushAll_ok hpo em
  have hfl : fut.flatten = em.flatten ++ fut'.flatten := by
    rw [← flatten_nonEmpty fut, hfut, List.flatten_append, flatten_nonEmpty, flatten_nonEmpty]
  cases sp with
  | decode Rs =>
    obtain ⟨u, h1, h2, h3, h3'⟩ := h
    have hu1 : ∀ i, (l.prev.items = [] → i = 0) →
        unread (l.prev.items ++ em) 1 i = unread l.prev.items 1 i ++ em.flatten := by
      intro i hi
      by_cases hn : l.prev.items = []
      · rw [hn, hi hn]
        simp only [List.nil_append]
        cases em with
        | nil => simp [unread]
        | cons a em => simp [unread]
      · exact unread_append (by omega) (by
          have := List.length_pos_iff.2 hn; omega)
    have hor : outerRest l' = outerRest l ++ em.flatten := by
      unfold outerRest
      rw [hph, hprev, hq2]
      by_cases h0 : l.ph.curr = 0
      · rw [if_pos h0, if_pos h0]
        exact hu1 _ (h3')
      · rw [if_neg h0, if_neg h0, List.drop_append_of_le_length h1.currle, List.flatten_append]
    refine ⟨u, ?_, ?_, ?_, ?_⟩
    · refine ⟨⟨by rw [hprev]; exact hq1, by rw [hph]; exact h1.qOk, by rw [hph]; exact h1.idx,
        by rw [hph]; exact h1.loop, by rw [hhead rfl]; exact h1.head, ?_, by rw [hph]; exact h1.currpos,
        ?_, ?_, ?_⟩, by rw [hph]; exact h1.walk, by rw [hph]; exact h1.pend⟩
      · rw [hph, hprev, hq2]; have := h1.currle; simp; omega
      · intro j hj
        rw [hph] at hj
        have := h1.earlier j hj
        rw [hor]
        rw [hfl] at this
        simpa using this
      · intro hf
        rw [hph] at hf
        obtain ⟨k1, k2⟩ := h1.unmatched hf
        rw [hph]
        refine ⟨k1, ?_⟩
        rw [hprev, hq2, hor, hu1 _ (h3'), k2]; simp
      · intro hf
        rw [hph] at hf
        obtain ⟨m, b, k1, k2, k3, k4, k5⟩ := h1.ismatch hf
        rw [hph]
        refine ⟨m, b, k1, k2, k3, ?_, ?_⟩
        · rw [hprev, hq2]; simp; omega
        · have hm : m ≤ (u ++ outerRest l).length := by
            have := (longest_some k1).2.1
            simp; omega
          rw [hprev, hq2, hor, unread_append k3 k4, k5, ← List.append_assoc,
            List.drop_append_of_le_length hm]
    · rw [List.flatten_append, h2, hor]; simp
    · unfold FSafe
      rw [hprev, hq2]
      rcases hsafe Rs rfl with hs | hs
      · left
        rw [List.flatten_append, hfl] at hs
        rw [List.flatten_append]
        simpa using hs
      · right; exact hs
    · intro h
      rw [hprev, hq2] at h
      rw [hph]; exact h3' (List.append_eq_nil_iff.1 h).1
  | rewrite Rs =>
    obtain ⟨⟨u, h1⟩, h2⟩ := h
    have hne : nonEmpty l'.prev.items = nonEmpty l.prev.items ++ nonEmpty em := by
      rw [hprev, hq2, nonEmpty_append]
    refine ⟨⟨u, ?_⟩, by rw [nonEmpty_append, h2, hne]⟩
    exact iinv_append h1 hfut hprev hph hb
  | encode Rs =>
    obtain ⟨⟨u, h1⟩, h2, h3⟩ := h
    have hne : nonEmpty l'.prev.items = nonEmpty l.prev.items ++ nonEmpty em := by
      rw [hprev, hq2, nonEmpty_append]
    refine ⟨⟨u, ?_⟩, by rw [nonEmpty_append, h2, hne], ?_⟩
    · exact iinv_append h1 hfut hprev hph hb
    · rw [hfut] at h3
      rw [nonEmpty_append, List.append_assoc]; exact h3
where
  iinv_append {s : Static π} {Rs : List (Rules Datum (List Datum))} {l l' : Loc π}
      {u fut em fut' : List Datum}
      (h1 : IInv s Rs l u (nonEmpty fut)) (hfut : nonEmpty fut = nonEmpty em ++ nonEmpty fut')
      (hprev : l'.prev = l.prev.pushAll em) (hph : l'.ph = l.ph) (hb : ∀ d ∈ em, IsBytes d) :
      IInv s Rs l' u (nonEmpty fut') := by
    obtain ⟨hq1, hq2⟩ := Queue.pushAll_ok h1.prevOk em
    have hne : nonEmpty l'.prev.items = nonEmpty l.prev.items ++ nonEmpty em := by
      rw [hprev, hq2, nonEmpty_append]
    refine ⟨⟨by rw [hprev]; exact hq1, by rw [hph]; exact h1.qOk, by rw [hph]; exact h1.idx,
      by rw [hph]; exact h1.loop, ?_, ?_, ?_, ?_, by rw [hph]; exact h1.unmatched, ?_⟩, ?_,
      by rw [hph]; exact h1.walk, by rw [hph]; exact h1.pend⟩
    · rw [hprev, hq2]
      intro d hd
      rcases List.mem_append.1 hd with hd | hd
      · exact h1.bytes d hd
      · exact hb d hd
    · rw [hph, hprev, hq2]; have := h1.currle; simp; omega
    · rw [hne]; exact h1.pre.trans ⟨_, rfl⟩
    · intro j hj
      rw [hph] at hj
      have := h1.earlier j hj
      rw [hne]
      rw [hfut] at this
      rwa [List.append_assoc]
    · intro hf
      rw [hph] at hf
      obtain ⟨m, b, k1, k2, k3, k4, k5⟩ := h1.ismatch hf
      rw [hph]
      refine ⟨m, b, k1, k2, k3, ?_, ?_⟩
      · rw [hprev, hq2]; simp; omega
      · have hm : m ≤ (nonEmpty l.prev.items).length := by
          have := (longest_some k1).2.1
          have := h1.pre.length_le
          omega
        rw [hne, hprev, hq2, List.drop_append_of_le_length (by omega), nonEmpty_append, k5,
          List.drop_append_of_le_length hm]
    · rw [hph, hprev, hq2, List.take_append_of_le_length h1.currle]; exact h1.read

theorem pinv_congr {s : Static π} {sp : Phase} {l l' : Loc π} {rem fut : List Datum}
    (h : PInv s sp l rem fut) (hprev : l'.prev = l.prev) (hq : l'.ph.q.Ok)
    (hph : l'.ph = { l.ph with q := l'.ph.q })
    (hhead : isDecode sp = true → l'.prevHeadLen = l.prevHeadLen) : PInv s sp l' rem fut := by
  cases l with
  | mk prev hl ph ie oe =>
  cases l' with
  | mk prev' hl' ph' ie' oe' =>
  simp only at hprev hq hph hhead
  subst hprev
  generalize ph'.q = q at hph hq
  subst hph
  cases sp with
  | decode Rs =>
    obtain ⟨u, h1, h2, h3, h4⟩ := h
    refine ⟨u, ?_, h2, h3, h4⟩
    have hh := hhead rfl
    exact ⟨⟨h1.prevOk, hq, h1.idx, h1.loop, by rw [hh]; exact h1.head, h1.currle, h1.currpos, h1.earlier,
      h1.unmatched, h1.ismatch⟩, h1.walk, h1.pend⟩
  | rewrite Rs =>
    obtain ⟨⟨u, h1⟩, h2⟩ := h
    exact ⟨⟨u, ⟨h1.prevOk, hq, h1.idx, h1.loop, h1.bytes, h1.currle, h1.pre, h1.earlier, h1.unmatched,
      h1.ismatch⟩, h1.read, h1.walk, h1.pend⟩, h2⟩
  | encode Rs =>
    obtain ⟨⟨u, h1⟩, h2⟩ := h
    exact ⟨⟨u, ⟨h1.prevOk, hq, h1.idx, h1.loop, h1.bytes, h1.currle, h1.pre, h1.earlier, h1.unmatched,
      h1.ismatch⟩, h1.read, h1.walk, h1.pend⟩, h2⟩

theorem rankV_congr {s : Static π} {l l' : Loc π} (hprev : l'.prev = l.prev)
    (hph : l'.ph = { l.ph with q := l'.ph.q }) : rankV s l' = rankV s l := by
  unfold rankV
  rw [hprev, hph]

theorem pads_congr {sp : Phase} {l l' : Loc π} (hprev : l'.prev = l.prev)
    (hph : l'.ph = { l.ph with q := l'.ph.q }) : pads sp l' = pads sp l := by
  cases sp <;> simp only [pads]
  unfold padCount
  rw [hprev, hph]

theorem pads_append {s : Static π} {sp : Phase} {l l' : Loc π} {rem fut em : List Datum}
    (h : PInv s sp l rem fut) (hprev : l'.prev = l.prev.pushAll em) (hph : l'.ph = l.ph) :
    pads sp l' ≤ pads sp l + empties em := by
  cases sp with
  | decode Rs => simp [pads]
  | encode Rs => simp [pads]
  | rewrite Rs =>
    obtain ⟨⟨u, h1⟩, h2⟩ := h
    obtain ⟨hq1, hq2⟩ := Queue.pushAll_ok h1.prevOk em
    simp only [pads]
    unfold padCount
    rw [hprev, hph, hq2]
    cases hf : l.ph.fMatch with
    | false => simp [empties_append]
    | true =>
      obtain ⟨m, b, k1, k2, k3, k4, k5⟩ := h1.ismatch hf
      simp only [if_true]
      rw [List.drop_append_of_le_length k4, empties_append]
      exact Nat.le_refl _

/-- A phase that has read everything and is not pending has nothing left. -/
theorem idle_empty {s : Static π} {sp : Phase} {l : Loc π} {rem fut : List Datum}
    (h : PInv s sp l rem fut) (hc : ¬ l.ph.curr < l.prev.items.length) (hp : l.ph.fPending = false) :
    nonEmpty rem = [] := by
  obtain ⟨_, _, hle⟩ := pinv_qok h
  have hend : l.ph.curr = l.prev.items.length := by omega
  cases sp with
  | decode Rs =>
    obtain ⟨u, h1, h2, _⟩ := h
    have hu : u = [] := by
      by_cases hu : u = []
      · exact hu
      · rw [h1.pend.2 hu] at hp; simp at hp
    have hor : outerRest l = [] := by
      unfold outerRest
      by_cases h0 : l.ph.curr = 0
      · have : l.prev.items = [] := List.length_eq_zero_iff.1 (by omega)
        simp [h0, unread, this]
      · rw [if_neg h0, List.drop_of_length_le (by omega)]; rfl
    rw [hu, hor] at h2
    have h3 : ∀ d ∈ rem, d = [] := by simpa using h2
    unfold nonEmpty
    rw [List.filter_eq_nil_iff]
    intro d hd
    rw [h3 d hd]; simp
  | rewrite Rs =>
    obtain ⟨⟨u, h1⟩, h2⟩ := h
    have hu : u = [] := by
      by_cases hu : u = []
      · exact hu
      · rw [h1.pend.2 hu] at hp; simp at hp
    have := h1.read
    rw [hend, List.take_length, hu] at this
    rw [h2, this]
  | encode Rs =>
    obtain ⟨⟨u, h1⟩, h2, _⟩ := h
    have hu : u = [] := by
      by_cases hu : u = []
      · exact hu
      · rw [h1.pend.2 hu] at hp; simp at hp
    have := h1.read
    rw [hend, List.take_length, hu] at this
    rw [h2, this]

theorem out_nil (sp : Phase) {a : List Datum} (h : nonEmpty a = []) :
    sp.out a = [] ∧ sp.inErrors a = 0 ∧ sp.outErrors a = 0 := by
  have hf : a.flatten = [] := by rw [← flatten_nonEmpty, h]; rfl
  cases sp with
  | decode Rs => simp [Phase.out, Phase.inErrors, Phase.outErrors, hf, dropMisses, misses]
  | rewrite Rs => simp [Phase.out, Phase.inErrors, Phase.outErrors, h, passMisses]
  | encode Rs => simp [Phase.out, Phase.inErrors, Phase.outErrors, h, dropMisses, misses]

/-- Table phases. -/
def tableKind {s : Static π} {sp : Phase} (hs : PhaseTables s sp) : Kind s where
  Inv := TInv s sp
  dec := isDecode sp
  pads := pads sp
  rank := rankV s
  qok := fun h => pinv_qok h.2
  visit := by
    rintro F l rem fut ⟨rfl, h⟩
    rcases phase_visit hs h with h | ⟨l', ctl, rem', em, h⟩
    · exact .inl h
    · exact .inr ⟨l', ctl, _, rem', em, h⟩
  flush := by
    rintro F l rem fut ⟨rfl, h⟩ h1 h2 h3
    rcases phase_flush hs h h1 h2 h3 with h | ⟨l', ctl, rem', em, h⟩
    · exact .inl h
    · exact .inr ⟨l', ctl, _, rem', em, h⟩
  append := by
    rintro F l l' rem fut em fut' ⟨rfl, h⟩ h1 h2 h3 h4 h5 h6
    refine ⟨rfl, pinv_append h h1 h2 h3 h4 h5 ?_⟩
    rintro Rs rfl
    exact h6 rfl
  frame := fun h h1 h2 h3 h4 => ⟨h.1, pinv_congr h.2 h1 h2 h3 h4⟩
  rank_frame := rankV_congr
  pads_frame := pads_congr
  pads_append := fun h => pads_append h.2
  idle := by
    rintro F l rem fut ⟨rfl, h⟩ h1 h2 h3
    have h4 := idle_empty h h1 h2
    have h5 : nonEmpty (rem ++ fut) = [] := by rw [nonEmpty_append, h4, h3]; rfl
    obtain ⟨a, b, c⟩ := out_nil sp h5
    exact ⟨by show nonEmpty (sp.out _) = []; rw [a]; rfl, b, c, trivial⟩
  noIn := by
    rintro hd F l rem fut ⟨rfl, h⟩
    cases sp with
    | decode Rs => simp [isDecode] at hd
    | rewrite Rs => rfl
    | encode Rs => rfl

theorem longest_nil {α β : Type} [DecidableEq α] (R : Rules α β) : longest R [] = none := rfl

/-- The invariant holds initially. -/
theorem table_init {s : Static π} {sp : Phase} (hs : PhaseTables s sp) {l : Loc π} (hl : Fresh l)
    {fut : List Datum} (henc : ∀ Rs, sp = .encode Rs → ISafe true s Rs (nonEmpty fut)) :
    (tableKind hs).Inv (tableBeh π sp) l [] fut := by
  refine ⟨rfl, ?_⟩
  obtain ⟨e2, e3, a1, a2, a3, a4, a5, a6, a7, a8⟩ := hl
  have hidx : l.ph.index ≤ s.codecn := by rw [a6]; omega
  have hqo : l.ph.q.Ok := by rw [a1]; rfl
  have hpo : l.prev.Ok := by rw [e2]; rfl
  have hitems : l.prev.items = [] := by rw [e2]; rfl
  have hor : outerRest l = [] := by
    unfold outerRest; rw [if_pos a8, hitems]; simp [unread]
  have hiinv : ∀ Rs : List (Rules Datum (List Datum)), Rs.length = s.codecn + 1 → IInv s Rs l [] (nonEmpty fut) := by
    intro Rs hlen
    refine ⟨⟨hpo, hqo, by omega, a5, by rw [hitems]; intro d hd; simp at hd, by rw [a8]; omega,
      by simp, by rw [a6]; intro j hj; omega, fun _ => longest_nil _, by rw [a3]; intro h; simp at h⟩,
      ?_, ?_, ?_⟩
    · rw [hitems]; simp [nonEmpty]
    · rw [a7]; rfl
    · rw [a4]; simp
  cases sp with
  | decode Rs =>
    refine ⟨[], ⟨⟨hpo, hqo, hidx, a5, e3, by rw [a8]; omega, fun h => absurd rfl h,
      by rw [a6]; intro j hj; omega, fun _ => ⟨longest_nil _, ?_⟩, by rw [a3]; intro h; simp at h⟩,
      ?_, ?_⟩, ?_, .inr ?_, fun _ => a2⟩
    · rw [hor, hitems]; simp [unread]
    · rw [a7]; rfl
    · rw [a4]; simp
    · rw [hor]; rfl
    · rw [hitems]; simp
  | rewrite Rs => exact ⟨⟨[], hiinv Rs hs.2.1⟩, by rw [hitems]⟩
  | encode Rs => exact ⟨⟨[], hiinv Rs hs.2.1⟩, by rw [hitems], by simpa [nonEmpty] using henc Rs rfl⟩

end Verif.Engine
