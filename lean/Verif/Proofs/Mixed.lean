import Verif.Spec.Mixed
import Verif.Proofs.Placed
import Verif.Proofs.EngineReader

/-! Table codecs followed by one codec that takes every datum, as a kind of phase. -/

namespace Verif.Engine
open Verif.Spec

variable {π : Type}

/-- Decisions and empty data put out. -/
def mixToks (act : π → Datum → π × List Datum) : π → List (Tok Datum (List Datum)) → Nat
  | _, [] => 0
  | t, .hit b :: ts => 1 + empties b + mixToks act t ts
  | t, .miss d :: ts => 1 + empties (act t d).2 + mixToks act (act t d).1 ts

/-- What such a phase will do. -/
def mbeh (Rs : List (Rules Datum (List Datum))) (act : π → Datum → π × List Datum) (n : Nat) (p : Nat → π) : Beh π where
  out := fun ds => mixOut act (p n) (tokens Rs (nonEmpty ds))
  inE := fun _ => 0
  outE := fun _ => 0
  toks := fun ds => mixToks act (p n) (tokens Rs (nonEmpty ds))
  fin := fun ds q => q = setPriv p n (mixEnd act (p n) (tokens Rs (nonEmpty ds)))
  congr := by intro a b h; simp only [h, true_and]

/-- The phase: tables, then a codec that takes everything. -/
structure MPhase (isTo : Bool) (s : Static π) (Rs : List (Rules Datum (List Datum))) (act : π → Datum → π × List Datum) : Prop where
  type : s.type = itType isTo
  len : Rs.length = s.codecn
  pos : 0 < s.codecn
  tables : ITables s Rs
  last : Member s s.codecn { act := fun t d => some ((act t d).1, (act t d).2, false) }
  bytes : ∀ t d, d ≠ [] → IsBytes d → ∀ x ∈ (act t d).2, IsBytes x

/-- The last codec is tried. -/
structure MTry (s : Static π) (Rs : List (Rules Datum (List Datum))) (l : Loc π) (fut : List Datum) : Prop where
  start : Start s.codecn l
  prevOk : l.prev.Ok
  qOk : l.ph.q.Ok
  bytes : ∀ d ∈ l.prev.items, IsBytes d
  currle : l.ph.curr ≤ l.prev.items.length
  clean : nonEmpty (l.prev.items.take l.ph.curr) = []
  ne : nonEmpty l.prev.items ≠ []
  none : firstMatch Rs (nonEmpty l.prev.items ++ fut) = none

/-- The invariant. -/
structure MInv (s : Static π) (Rs : List (Rules Datum (List Datum))) (act : π → Datum → π × List Datum) (F : Beh π) (l : Loc π)
    (rem fut : List Datum) : Prop where
  beh : F = mbeh Rs act s.codecn l.ph.priv
  remEq : nonEmpty rem = nonEmpty l.prev.items
  mode : (∃ u, IInv s Rs l u (nonEmpty fut)) ∨ MTry s Rs l (nonEmpty fut)

theorem MTry.lt {s : Static π} {Rs : List (Rules Datum (List Datum))} {l : Loc π} {fut : List Datum} (h : MTry s Rs l fut) :
    l.ph.curr < l.prev.items.length := by
  rcases Nat.lt_or_ge l.ph.curr l.prev.items.length with k | k
  · exact k
  · have := h.clean
    rw [List.take_of_length_le k] at this
    exact absurd this h.ne

/-- A decision that is one whatever the type of the phase found a match. -/
theorem IDecide.hit {s : Static π} {Rs : List (Rules Datum (List Datum))} {l l' : Loc π} {fut : List Datum}
    (h : ∀ isTo, IDecide isTo s Rs l l' fut) :
    ∃ b, tokens Rs (nonEmpty l.prev.items ++ fut) = .hit b :: tokens Rs (nonEmpty l'.prev.items ++ fut) ∧
      l'.ph.q = l.ph.q.pushAll b ∧ (∀ d ∈ b, d ≠ [] ∧ IsBytes d) ∧ l'.oerr = l.oerr ∧ padCount l' ≤ padCount l + 1 := by
  have ho : l'.oerr = l.oerr := by
    rcases (h false).ex with ⟨t, _, _, _, h4, _⟩ | ⟨_, _, _, h4, _⟩
    · simpa using h4
    · exact h4
  rcases (h true).ex with ⟨t, h1, h2, h3, h4, h5⟩ | ⟨h1, _⟩
  · cases t with
    | miss a => simp [misses] at h4; omega
    | hit b =>
      refine ⟨b, h1, by simpa [dropMisses] using h2, by simpa [dropMisses] using h3, ho, h5⟩
  · simp at h1

theorem iinv_start {s : Static π} {Rs : List (Rules Datum (List Datum))} {l : Loc π} (fut : List Datum) (hs : Start 0 l)
    (hpos : 0 < Rs.length) (hc : l.ph.curr = 0) (hp : l.prev.Ok) (hq : l.ph.q.Ok) (hb : ∀ d ∈ l.prev.items, IsBytes d) :
    IInv s Rs l [] fut := by
  refine ⟨⟨hp, hq, by rw [hs.index]; exact hpos, hs.loop, hb, by omega, by simp, ?_, fun _ => rfl, ?_⟩, by rw [hc]; rfl,
    by rw [hs.st]; rfl, by rw [hs.pend]; simp⟩
  · intro j hj; rw [hs.index] at hj; omega
  · intro h; rw [hs.fmatch] at h; simp at h

theorem padCount_start {l : Loc π} {j : Nat} (h : Start j l) : padCount l = empties l.prev.items := by
  unfold padCount; rw [h.fmatch]; rfl

abbrev MQuiet (s : Static π) (Rs : List (Rules Datum (List Datum))) (act : π → Datum → π × List Datum) (F : Beh π) (l l' : Loc π)
    (rem fut : List Datum) : Prop := Quiet (MInv s Rs act) false padCount (rankV s) F l l' rem fut

abbrev MDecide (s : Static π) (Rs : List (Rules Datum (List Datum))) (act : π → Datum → π × List Datum) (F : Beh π) (l l' : Loc π)
    (rem fut : List Datum) (F' : Beh π) (rem' em : List Datum) : Prop :=
  Decide (MInv s Rs act) false padCount F l l' rem fut F' rem' em

variable {isTo : Bool} {s : Static π} {Rs : List (Rules Datum (List Datum))} {act : π → Datum → π × List Datum}

/-- Nothing but the reading position changed. -/
theorem Same.quiet {F : Beh π} {l l' : Loc π} {rem fut : List Datum} (hb : F = mbeh Rs act s.codecn l.ph.priv)
    (hr : nonEmpty rem = nonEmpty l.prev.items) (h : Same l l') (k : rankV s l' ≤ rankV s l)
    (hm : (∃ u, IInv s Rs l' u (nonEmpty fut)) ∨ MTry s Rs l' (nonEmpty fut)) : MQuiet s Rs act F l l' rem fut :=
  ⟨⟨by rw [h.priv]; exact hb, by rw [hr, h.ne], hm⟩, h.q, h.ierr, h.oerr, h.head, fun _ => h.consumed, fun e => absurd e (by simp), h.pads, k⟩

/-- A match was found. -/
theorem mix_hit (hM : MPhase isTo s Rs act) {F : Beh π} {l l' : Loc π} {rem fut : List Datum}
    (hb : F = mbeh Rs act s.codecn l.ph.priv) (hr : nonEmpty rem = nonEmpty l.prev.items)
    (h : ∀ t, IDecide t s Rs l l' (nonEmpty fut)) :
    ∃ rem' em, MDecide s Rs act F l l' rem fut F rem' em := by
  obtain ⟨b, h1, h2, h3, h4, h5⟩ := IDecide.hit h
  have hd := h true
  subst hb
  refine ⟨l'.prev.items, b, ⟨by rw [hd.priv], rfl, .inl ⟨[], hd.inv⟩⟩, h2, fun d hd => (h3 d hd).2, hd.head, fun _ => hd.consumed,
    fun e => absurd e (by simp), Nat.le_refl _, ?_, ?_, ?_, ?_, .inl ⟨?_, h5⟩⟩
  · simp only [mbeh, nonEmpty_append, hr, h1, mixOut]
  · simp only [mbeh]; rw [hd.ierr]
  · simp only [mbeh]; rw [h4]
  · simp only [mbeh, nonEmpty_append, hr, h1, mixEnd]
  · simp only [mbeh, nonEmpty_append, hr, h1, mixToks]; omega

/-- The last codec is at work. -/
theorem mix_try (hM : MPhase isTo s Rs act) {F : Beh π} {l : Loc π} {rem fut : List Datum}
    (hb : F = mbeh Rs act s.codecn l.ph.priv) (hr : nonEmpty rem = nonEmpty l.prev.items) (h : MTry s Rs l (nonEmpty fut)) :
    (∃ l' ctl, LReach s s.type.outer l l' ctl ∧ (ctl = .goto .leave ∨ ctl = .nextBegin) ∧
      MQuiet s Rs act F l l' rem fut ∧ rankV s l' < rankV s l) ∨
    (∃ l' ctl F' rem' em, LReach s s.type.outer l l' ctl ∧ DCtl s.type ctl ∧
      MDecide s Rs act F l l' rem fut F' rem' em) := by
  have hn : s.type ≠ .from_ := by rw [hM.type]; exact itType_ne isTo
  generalize hk : l.prev.items.length - l.ph.curr = k
  induction k using Nat.strongRecOn generalizing l with
  | ind k ih =>
    have hlt := h.lt
    by_cases he : l.prev.items[l.ph.curr] = []
    · obtain ⟨ctl, h1, h2⟩ := it_empty hn hlt he
      generalize hl1 : ({ l with ph := { l.ph with curr := l.ph.curr + 1, status := .nomatch, i := 0 } } : Loc π) = l1 at h1
      have e1 : l1.prev = l.prev := by rw [← hl1]
      have e2 : l1.ph.curr = l.ph.curr + 1 := by rw [← hl1]
      have hs : Same l l1 := by rw [← hl1]; exact ⟨rfl, rfl, rfl, rfl, rfl, rfl, rfl, Nat.le_refl _⟩
      have hst := h.start
      have ht : MTry s Rs l1 (nonEmpty fut) := by
        refine ⟨?_, by rw [e1]; exact h.prevOk, by rw [hs.q]; exact h.qOk, by rw [e1]; exact h.bytes, by rw [e1, e2]; omega, ?_,
          by rw [e1]; exact h.ne, by rw [e1]; exact h.none⟩
        · rw [← hl1]; exact ⟨hst.index, hst.st, hst.loop, hst.fmatch, hst.pend⟩
        · rw [e1, e2, take_succ' hlt, nonEmpty_append, h.clean, he]; rfl
      have hrk : rankV s l1 < rankV s l := by
        unfold rankV; rw [ht.start.fmatch, hst.fmatch, ht.start.index, hst.index, e1, e2]; simp; omega
      rcases h2 with rfl | rfl
      · rcases ih (l1.prev.items.length - l1.ph.curr) (by rw [e1, e2]; omega) (by rw [hs.priv]; exact hb) (by rw [e1]; exact hr) ht rfl with
          ⟨l', ctl, a1, a2, a3, a4⟩ | ⟨l', ctl, F', rem', em, a1, a2, a3⟩
        · left
          refine ⟨l', ctl, h1.trans a1, a2, ?_, by omega⟩
          exact ⟨a3.inv, a3.q.trans hs.q, a3.ierr.trans hs.ierr, a3.oerr.trans hs.oerr, a3.head.trans hs.head,
            fun e => (a3.consumed e).trans hs.consumed, fun e => absurd e (by simp), Nat.le_trans a3.pads hs.pads, by omega⟩
        · right
          refine ⟨l', ctl, F', rem', em, h1.trans a1, a2, ?_⟩
          refine ⟨a3.inv, by rw [a3.q, hs.q], a3.bytes, a3.head.trans hs.head, fun e => (a3.consumed e).trans hs.consumed,
            fun e => absurd e (by simp), a3.inErr_le, a3.out, by rw [a3.ierr, hs.ierr], by rw [a3.oerr, hs.oerr], a3.fin, ?_⟩
          have := hs.pads
          rcases a3.measure with ⟨m1, m2⟩ | ⟨m1, m2, m3⟩
          · exact .inl ⟨m1, by omega⟩
          · exact .inr ⟨m1, by omega, m3⟩
      · left
        exact ⟨l1, _, h1, .inr rfl, hs.quiet hb hr (by omega) (.inr ht), hrk⟩
    · right
      have hpost := hM.last.fresh l h.start h.prevOk h.bytes hlt he trivial
      obtain ⟨l', ctl, a1, a2, a3⟩ := hpost
      have hhead : nonEmpty l.prev.items = l.prev.items[l.ph.curr] :: nonEmpty (l.prev.items.drop (l.ph.curr + 1)) := by
        rw [nonEmpty_take_drop _ l.ph.curr, h.clean, drop_cons hlt, nonEmpty_cons he]; rfl
      have htok : tokens Rs (nonEmpty l.prev.items ++ nonEmpty fut) =
          .miss l.prev.items[l.ph.curr] :: tokens Rs (nonEmpty l'.prev.items ++ nonEmpty fut) := by
        have := h.none
        rw [hhead, List.cons_append] at this ⊢
        rw [tokens_miss this, a3.ne]
      have hp : l'.ph.priv = setPriv l.ph.priv s.codecn (act (l.ph.priv s.codecn) l.prev.items[l.ph.curr]).1 := by
        rw [a3.priv, h.start.index]
      subst hb
      refine ⟨l', ctl, mbeh Rs act s.codecn l'.ph.priv, l'.prev.items, _, a1, a2, ⟨rfl, rfl, .inl ⟨[], ?_⟩⟩, a3.q,
        hM.bytes _ _ he (h.bytes _ (List.getElem_mem hlt)), a3.head, fun _ => a3.consumed, fun e => absurd e (by simp), Nat.le_refl _,
        ?_, ?_, ?_, ?_, .inl ⟨?_, ?_⟩⟩
      · refine iinv_start _ a3.start (by rw [hM.len]; exact hM.pos) a3.curr a3.prevOk ?_ ?_
        · rw [a3.q]; exact (Queue.pushAll_ok h.qOk _).1
        · intro d hd
          rcases a3.bytes d hd with k | k
          · exact h.bytes d k
          · subst k; intro b hb; simp at hb
      · simp only [mbeh, nonEmpty_append, hr, htok, mixOut]
        rw [hp, setPriv_same]
      · simp only [mbeh]; rw [a3.ierr]
      · simp only [mbeh]; rw [a3.oerr]
      · simp only [mbeh, nonEmpty_append, hr, htok, mixEnd]
        rw [hp, setPriv_same, setPriv_setPriv]
      · simp only [mbeh, nonEmpty_append, hr, htok, mixToks]
        rw [hp, setPriv_same]; omega
      · rw [padCount_start h.start, padCount_start a3.start]; exact a3.emp

/-- From the dead end of a table. -/
theorem mix_dead (hM : MPhase isTo s Rs act) {F : Beh π} {l : Loc π} {rem fut u : List Datum}
    (hb : F = mbeh Rs act s.codecn l.ph.priv) (hr : nonEmpty rem = nonEmpty l.prev.items) (hd : IDead s Rs l u (nonEmpty fut)) :
    (∃ l' ctl rem' em, LReach s s.type.dead l l' ctl ∧ DCtl s.type ctl ∧ MDecide s Rs act F l l' rem fut F rem' em) ∨
    (∃ l', LReach s s.type.dead l l' (.goto s.type.outer) ∧ Same l l' ∧ l'.ph.curr = 0 ∧ l'.ph.index = l.ph.index + 1 ∧
      l.ph.fMatch = false ∧ l'.ph.fMatch = false ∧ l'.prev = l.prev ∧
      (IInv s Rs l' [] (nonEmpty fut) ∨ MTry s Rs l' (nonEmpty fut))) := by
  rw [hM.type]
  cases hm : l.ph.fMatch with
  | true =>
    left
    obtain ⟨l', ctl, k1, k2, k3⟩ := it_dead_hit isTo hM.tables hd hm
    obtain ⟨rem', em, k4⟩ := mix_hit hM hb hr k3
    exact ⟨l', ctl, rem', em, k1, k2, k4⟩
  | false =>
    right
    have hidx := hd.idx
    have hlen := hM.len
    obtain ⟨l', k1, k2, k3, k4, k5, k6, k7, k8, k9⟩ := it_dead_next (s := s) isTo hm (by omega)
    refine ⟨l', k1, k2, k3, k4, rfl, k5, k6, ?_⟩
    by_cases hi : l.ph.index + 1 < Rs.length
    · exact .inl (dead_next_inv hd hm k2 k3 k4 k5 k6 k7 k8 k9 hi)
    · right
      refine ⟨⟨by rw [k4]; omega, k7, k8, k5, k9⟩, by rw [k6]; exact hd.prevOk, by rw [k2.q]; exact hd.qOk, by rw [k6]; exact hd.bytes,
        by rw [k3]; omega, by rw [k3]; rfl, by rw [k6]; exact hd.ne, ?_⟩
      rw [k6]
      apply firstMatch_none_at
      intro j hj
      by_cases hji : j = l.ph.index
      · subst hji; rw [hd.dec]; exact hd.unmatched hm
      · exact hd.earlier j (by omega)

theorem mquiet_trans {F : Beh π} {a b c : Loc π} {rem fut : List Datum} (h : Same a b) (hr : rankV s b ≤ rankV s a)
    (k : MQuiet s Rs act F b c rem fut) : MQuiet s Rs act F a c rem fut :=
  ⟨k.inv, k.q.trans h.q, k.ierr.trans h.ierr, k.oerr.trans h.oerr, k.head.trans h.head, fun e => (k.consumed e).trans h.consumed,
    fun e => absurd e (by simp), Nat.le_trans k.pads h.pads, Nat.le_trans k.rank hr⟩

theorem mdecide_trans {F F' : Beh π} {a b c : Loc π} {rem fut rem' em : List Datum} (h : Same a b)
    (k : MDecide s Rs act F b c rem fut F' rem' em) : MDecide s Rs act F a c rem fut F' rem' em := by
  refine ⟨k.inv, by rw [k.q, h.q], k.bytes, k.head.trans h.head, fun e => (k.consumed e).trans h.consumed,
    fun e => absurd e (by simp), k.inErr_le, k.out, by rw [k.ierr, h.ierr], by rw [k.oerr, h.oerr], k.fin, ?_⟩
  have := h.pads
  rcases k.measure with ⟨m1, m2⟩ | ⟨m1, m2, m3⟩
  · exact .inl ⟨m1, by omega⟩
  · exact .inr ⟨m1, by omega, m3⟩

/-- A visit while a table is at work. -/
theorem mix_visit (hM : MPhase isTo s Rs act) {F : Beh π} (l : Loc π) (rem fut u : List Datum)
    (hb : F = mbeh Rs act s.codecn l.ph.priv) (hr : nonEmpty rem = nonEmpty l.prev.items) (hi : IInv s Rs l u (nonEmpty fut)) :
    (∃ l' ctl, LReach s s.type.outer l l' ctl ∧ (ctl = .goto .leave ∨ ctl = .nextBegin) ∧
      MQuiet s Rs act F l l' rem fut ∧ (l.ph.curr < l.prev.items.length → rankV s l' < rankV s l) ∧
      (ctl = .nextBegin → l.ph.curr < l.prev.items.length)) ∨
    (∃ l' ctl F' rem' em, LReach s s.type.outer l l' ctl ∧ DCtl s.type ctl ∧
      MDecide s Rs act F l l' rem fut F' rem' em) := by
  by_cases hlt : l.ph.curr < l.prev.items.length
  · rcases it_step hM.tables (itType_ne isTo) hi hlt with
      ⟨l1, h1, h2, h3, h4, h5, h6, h7, h8⟩ |
      ⟨l1, u1, ctl, h1, h2, h3, h4, h5, h6, h7⟩ | h
    · have hr1 : rankV s l1 < rankV s l := by
        unfold rankV; rw [h4, h5, h6, h7]; omega
      rw [← hM.type] at h1
      cases hto : isTo with
      | false =>
        left
        have hty := hM.type
        rw [hto] at hty
        rw [hty] at h1 ⊢
        refine ⟨l1, .nextBegin, .cons rfl h1 (.one rfl ?_), .inr rfl, h8.quiet hb hr (by omega) (.inl ⟨u, h3⟩), fun _ => hr1, fun _ => hlt⟩
        simp only [itType, Bool.false_eq_true, if_false, PType.sw, localStep, interSw, h2]
      | true =>
        have hsw : localStep s s.type.sw l1 = (l1, .goto s.type.outer) := by
          rw [hM.type, hto]
          simp only [itType, if_true, PType.sw, localStep, toSw, h2, PType.outer]
        have hst : LReach s s.type.outer l l1 (.goto s.type.outer) :=
          .cons s.type.outer_local h1 (.one s.type.sw_local hsw)
        rcases mix_visit (F := F) hM l1 rem fut u (hb.trans (by rw [h8.priv])) (by rw [h4]; exact hr) h3 with
          ⟨l', ctl, k1, k2, k3, k4, _⟩ | ⟨l', ctl, F', rem', em, k1, k2, k3⟩
        · left
          have := k3.rank
          exact ⟨l', ctl, hst.trans k1, k2, mquiet_trans h8 (by omega) k3, fun _ => by omega, fun _ => hlt⟩
        · right
          exact ⟨l', ctl, F', rem', em, hst.trans k1, k2, mdecide_trans h8 k3⟩
    · have hprod : (if l1.ph.fMatch then 0 else (s.codecn - l1.ph.index) * (l1.prev.items.length + 1)) ≤
          (if l.ph.fMatch then 0 else (s.codecn - l.ph.index) * (l.prev.items.length + 1)) := by
        rcases h6 with h6 | ⟨_, _, h6⟩
        · rw [h3, h6]
          cases hf : l.ph.fMatch with
          | true => rw [h5 hf]; simp
          | false => cases l1.ph.fMatch <;> simp
        · rw [h6]; simp
      have hr1 : rankV s l1 ≤ rankV s l := by
        unfold rankV; rw [h4]; omega
      have hb1 : F = mbeh Rs act s.codecn l1.ph.priv := by rw [h2.priv]; exact hb
      have hrr : nonEmpty rem = nonEmpty l1.prev.items := by rw [h2.ne]; exact hr
      rw [← hM.type] at h1 h7
      rcases h7 with ⟨rfl, h7, h8⟩ | ⟨rfl, h7⟩
      · have hule : u1.length ≤ (nonEmpty l.prev.items).length := by
          rw [← h2.ne]; exact h7.pre.length_le
        have hne := h2.ne
        rcases mix_visit hM l1 rem fut u1 hb1 hrr h7 with
          ⟨l', ctl, k1, k2, k3, k4, _⟩ | ⟨l', ctl, F', rem', em, k1, k2, k3⟩
        · left
          have k5 := k3.rank
          refine ⟨l', ctl, h1.trans k1, k2, mquiet_trans h2 hr1 k3, fun _ => ?_, fun _ => hlt⟩
          rcases h6 with h6 | ⟨h6, h6', h6''⟩
          · have : rankV s l1 < rankV s l := by
              unfold rankV; rw [h4]; omega
            omega
          · have := k4 (by omega)
            omega
        · right
          exact ⟨l', ctl, F', rem', em, h1.trans k1, k2, mdecide_trans h2 k3⟩
      · have hidx := h7.idx
        have hlen := hM.len
        rcases mix_dead hM hb1 hrr h7 with ⟨l', ctl, rem', em, k1, k2, k3⟩ |
          ⟨l2, k1, k3, k4, k5, k7, k8, k9, k2⟩
        · right
          exact ⟨l', ctl, F, rem', em, h1.trans k1, k2, mdecide_trans h2 k3⟩
        · have hN : l1.prev.items.length = l.prev.items.length := by
            rcases h6 with h6 | ⟨_, _, h6⟩
            · exact h6
            · rw [k7] at h6; simp at h6
          have hf : l.ph.fMatch = false := by
            cases hf : l.ph.fMatch with
            | false => rfl
            | true => rw [h5 hf] at k7; simp at k7
          have hr2 : rankV s l2 < rankV s l := by
            unfold rankV
            rw [k8, hf, k9, k5, h3, hN, k4]
            simp only [Bool.false_eq_true, if_false]
            exact rank_index (by omega) (by omega)
          have hb2 : F = mbeh Rs act s.codecn l2.ph.priv := by rw [k3.priv]; exact hb1
          have hr2' : nonEmpty rem = nonEmpty l2.prev.items := by rw [k9]; exact hrr
          rcases k2 with k2 | k2
          · rcases mix_visit hM l2 rem fut [] hb2 hr2' k2 with
              ⟨l', ctl, j1, j2, j3, j4, _⟩ | ⟨l', ctl, F', rem', em, j1, j2, j3⟩
            · left
              have := j3.rank
              exact ⟨l', ctl, h1.trans (k1.trans j1), j2, mquiet_trans (h2.trans k3) (by omega) j3, fun _ => by omega, fun _ => hlt⟩
            · right
              exact ⟨l', ctl, F', rem', em, h1.trans (k1.trans j1), j2, mdecide_trans (h2.trans k3) j3⟩
          · rcases mix_try hM hb2 hr2' k2 with ⟨l', ctl, j1, j2, j3, j4⟩ | ⟨l', ctl, F', rem', em, j1, j2, j3⟩
            · left
              exact ⟨l', ctl, h1.trans (k1.trans j1), j2, mquiet_trans (h2.trans k3) (by omega) j3, fun _ => by omega, fun _ => hlt⟩
            · right
              exact ⟨l', ctl, F', rem', em, h1.trans (k1.trans j1), j2, mdecide_trans (h2.trans k3) j3⟩
    · right
      obtain ⟨l1, h1, h2⟩ := h
      obtain ⟨rem', em, h3⟩ := mix_hit hM hb hr h2
      rw [← hM.type] at h1
      exact ⟨l1, _, F, rem', em, h1, .inr (.inr rfl), h3⟩
  · left
    refine ⟨l, .goto .leave, .one s.type.outer_local ?_, .inl rfl, (Same.refl l).quiet hb hr (Nat.le_refl _) (.inl ⟨u, hi⟩),
      fun h => absurd h hlt, by simp⟩
    rw [it_outer_eq s l (by rw [hM.type]; exact itType_ne isTo)]
    simp only [itOuter, Queue.hasNext, decide_eq_false hlt]; rfl
termination_by (s.codecn - l.ph.index,
  2 * ((nonEmpty l.prev.items).length - u.length) + (l.prev.items.length - l.ph.curr))
decreasing_by
  all_goals simp_wf
  · rw [h7, h4]; right; omega
  · rw [h3, hne]; right; rcases h6 with h6 | ⟨h6, h6', _⟩ <;> omega
  · left; omega

/-- Flushing. -/
theorem mix_flush (hM : MPhase isTo s Rs act) {F : Beh π} {l : Loc π} {rem fut : List Datum} (h : MInv s Rs act F l rem fut)
    (hf : nonEmpty fut = []) (hend : l.ph.curr = l.prev.items.length) (hp : l.ph.fPending = true) :
    (∃ l' ctl, LReach s s.type.dead l l' ctl ∧ (ctl = .goto .leave ∨ ctl = .nextBegin) ∧
      MQuiet s Rs act F l l' rem fut ∧ rankV s l' < rankV s l) ∨
    (∃ l' ctl F' rem' em, LReach s s.type.dead l l' ctl ∧ DCtl s.type ctl ∧
      MDecide s Rs act F l l' rem fut F' rem' em) := by
  rcases h.mode with ⟨u, hi⟩ | hi
  · have hu : u ≠ [] := hi.pend.1 hp
    have hall : nonEmpty l.prev.items = u := by
      have := hi.read; rwa [hend, List.take_length] at this
    have hd : IDead s Rs l u (nonEmpty fut) := by
      refine ⟨hi.toICore, by rw [hall, hf, List.append_nil], by rw [hall]; exact hu, ?_⟩
      intro _ hs
      exact (walk_multi (hM.tables.rep _ hi.idx) (hM.tables.good _ hi.idx) hu hi.walk hs).elim
    have hidx := hd.idx
    have hlen := hM.len
    rcases mix_dead hM h.beh h.remEq hd with ⟨l', ctl, rem', em, k1, k2, k3⟩ |
        ⟨l2, k1, k3, k4, k5, k7, k8, k9, k2⟩
    · right; exact ⟨l', ctl, F, rem', em, k1, k2, k3⟩
    · have hr2 : rankV s l2 < rankV s l := by
        unfold rankV
        rw [k8, k7, k9, k5, k4]
        simp only [Bool.false_eq_true, if_false]
        exact rank_index (by omega) (by omega)
      have hb2 : F = mbeh Rs act s.codecn l2.ph.priv := by rw [k3.priv]; exact h.beh
      have hr2' : nonEmpty rem = nonEmpty l2.prev.items := by rw [k9]; exact h.remEq
      rcases k2 with k2 | k2
      · rcases mix_visit hM l2 rem fut [] hb2 hr2' k2 with
          ⟨l', ctl, j1, j2, j3, j4, _⟩ | ⟨l', ctl, F', rem', em, j1, j2, j3⟩
        · left
          have := j3.rank
          exact ⟨l', ctl, k1.trans j1, j2, mquiet_trans k3 (by omega) j3, by omega⟩
        · right
          exact ⟨l', ctl, F', rem', em, k1.trans j1, j2, mdecide_trans k3 j3⟩
      · rcases mix_try hM hb2 hr2' k2 with ⟨l', ctl, j1, j2, j3, j4⟩ | ⟨l', ctl, F', rem', em, j1, j2, j3⟩
        · left
          exact ⟨l', ctl, k1.trans j1, j2, mquiet_trans k3 (by omega) j3, by omega⟩
        · right
          exact ⟨l', ctl, F', rem', em, k1.trans j1, j2, mdecide_trans k3 j3⟩
  · have := hi.lt; omega

/-- Such phases are a kind of phase. -/
def mixKind (hM : MPhase isTo s Rs act) : Kind s where
  Inv := MInv s Rs act
  dec := false
  pads := padCount
  rank := rankV s
  qok := by
    intro F l rem fut h
    rcases h.mode with ⟨u, k⟩ | k
    · exact ⟨k.qOk, k.prevOk, k.currle⟩
    · exact ⟨k.qOk, k.prevOk, k.currle⟩
  visit := by
    intro F l rem fut h
    rcases h.mode with ⟨u, k⟩ | k
    · exact mix_visit hM l rem fut u h.beh h.remEq k
    · rcases mix_try hM h.beh h.remEq k with ⟨l', ctl, a1, a2, a3, a4⟩ | a
      · exact .inl ⟨l', ctl, a1, a2, a3, fun _ => a4, fun _ => k.lt⟩
      · exact .inr a
  flush := fun h h1 h2 h3 => mix_flush hM h h1 h2 h3
  append := by
    intro F l l' rem fut em fut' h h1 h2 h3 _ h5 _
    have hpo : l.prev.Ok := by
      rcases h.mode with ⟨u, k⟩ | k
      · exact k.prevOk
      · exact k.prevOk
    obtain ⟨q1, q2⟩ := Queue.pushAll_ok hpo em
    have hit : l'.prev.items = l.prev.items ++ em := by rw [h2, q2]
    refine ⟨by rw [h3]; exact h.beh, by rw [nonEmpty_append, h.remEq, hit, nonEmpty_append], ?_⟩
    rcases h.mode with ⟨u, k⟩ | k
    · exact .inl ⟨u, pinv_append.iinv_append k h1 h2 h3 h5⟩
    · right
      have hs := k.start
      refine ⟨⟨by rw [h3]; exact hs.index, by rw [h3]; exact hs.st, by rw [h3]; exact hs.loop, by rw [h3]; exact hs.fmatch,
        by rw [h3]; exact hs.pend⟩, by rw [h2]; exact q1, by rw [h3]; exact k.qOk, ?_, ?_, ?_, ?_, ?_⟩
      · rw [hit]
        intro d hd
        rcases List.mem_append.1 hd with hd | hd
        · exact k.bytes d hd
        · exact h5 d hd
      · rw [h3, hit]; have := k.currle; simp; omega
      · rw [h3, hit, List.take_append_of_le_length k.currle]; exact k.clean
      · rw [hit, nonEmpty_append]; have := k.ne; simp [this]
      · rw [hit, nonEmpty_append, List.append_assoc, ← h1]; exact k.none
  frame := by
    intro F l l' rem fut h hprev hq hph _
    refine ⟨by rw [hph]; exact h.beh, by rw [hprev]; exact h.remEq, ?_⟩
    rcases h.mode with ⟨u, k⟩ | k
    · left
      exact (pinv_congr (sp := .rewrite Rs) (l' := l') (rem := rem) ⟨⟨u, k⟩, h.remEq⟩ hprev hq hph (by simp [isDecode])).1
    · right
      have hs := k.start
      exact ⟨⟨by rw [hph]; exact hs.index, by rw [hph]; exact hs.st, by rw [hph]; exact hs.loop, by rw [hph]; exact hs.fmatch,
        by rw [hph]; exact hs.pend⟩, by rw [hprev]; exact k.prevOk, hq, by rw [hprev]; exact k.bytes, by rw [hph, hprev]; exact k.currle,
        by rw [hph, hprev]; exact k.clean, by rw [hprev]; exact k.ne, by rw [hprev]; exact k.none⟩
  rank_frame := rankV_congr
  pads_frame := by intro l l' h1 h2; exact pads_congr (sp := .rewrite Rs) h1 h2
  pads_append := by
    intro F l l' rem fut em h h1 h2
    rcases h.mode with ⟨u, k⟩ | k
    · exact pads_append (sp := .rewrite Rs) (rem := rem) ⟨⟨u, k⟩, h.remEq⟩ h1 h2
    · have hs : Start s.codecn l' := by
        have hs := k.start
        exact ⟨by rw [h2]; exact hs.index, by rw [h2]; exact hs.st, by rw [h2]; exact hs.loop, by rw [h2]; exact hs.fmatch,
          by rw [h2]; exact hs.pend⟩
      rw [padCount_start hs, padCount_start k.start, h1, (Queue.pushAll_ok k.prevOk em).2, empties_append]
      exact Nat.le_refl _
  idle := by
    intro F l rem fut h h1 h2 h3
    rcases h.mode with ⟨u, k⟩ | k
    · have h4 := idle_empty (sp := .rewrite Rs) (rem := rem) ⟨⟨u, k⟩, h.remEq⟩ h1 h2
      have h5 : nonEmpty (rem ++ fut) = [] := by rw [nonEmpty_append, h4, h3]; rfl
      rw [h.beh]
      simp only [mbeh, h5, tokens_nil, mixOut, mixEnd]
      exact ⟨rfl, trivial, trivial, (setPriv_self _ _).symm⟩
    · exact absurd k.lt h1
  noIn := by
    intro _ F l rem fut h
    rw [h.beh]; rfl

theorem mixOut_bytes (hM : MPhase isTo s Rs act) : ∀ (n : Nat) (ds : List Datum), ds.length ≤ n → ∀ t : π, AllBytes ds → (∀ d ∈ ds, d ≠ []) →
    AllBytes (mixOut act t (tokens Rs ds)) := by
  intro n
  induction n with
  | zero =>
    intro ds hl t _ _
    obtain rfl : ds = [] := List.length_eq_zero_iff.1 (by omega)
    intro d hd; simp [mixOut] at hd
  | succ n ih =>
    intro ds hl t hb hne
    cases ds with
    | nil => intro d hd; simp [mixOut] at hd
    | cons d ds =>
      cases hf : firstMatch Rs (d :: ds) with
      | none =>
        rw [tokens_miss hf]
        intro x hx
        simp only [mixOut, List.mem_append] at hx
        rcases hx with hx | hx
        · exact hM.bytes t d (hne d (by simp)) (hb d (by simp)) x hx
        · exact ih ds (by simp at hl; omega) _ (fun y hy => hb y (by simp [hy])) (fun y hy => hne y (by simp [hy])) x hx
      | some r =>
        obtain ⟨m, b⟩ := r
        have hmem := firstMatch_mem hf
        have hpos : 0 < m := (firstMatch_pos hf).1
        rw [tokens_hit hf]
        intro x hx
        simp only [mixOut, List.mem_append] at hx
        rcases hx with hx | hx
        · obtain ⟨R, hR, r, hr, rfl⟩ := hmem
          obtain ⟨j, hj, rfl⟩ := List.getElem_of_mem hR
          have := hM.tables.good j hj r (by simpa [ruleAt, List.getD_eq_getElem?_getD, List.getElem?_eq_getElem hj] using hr)
          exact (this.2.2.2 x hx).2
        · exact ih ((d :: ds).drop m) (by simp only [List.length_drop]; omega) _ (fun y hy => hb y (List.mem_of_mem_drop hy))
            (fun y hy => hne y (List.mem_of_mem_drop hy)) x hx

/-- Such a phase realises its description. -/
theorem mix_realises (hM : MPhase isTo s Rs act) (p : Nat → π) :
    Realises s (fun q => q = p)
      { out := fun ds => mixOut act (p s.codecn) (tokens Rs (nonEmpty ds))
        fin := fun ds q => q = setPriv p s.codecn (mixEnd act (p s.codecn) (tokens Rs (nonEmpty ds))) } := by
  refine ⟨mixKind hM, mbeh Rs act s.codecn p, rfl, ?_, ?_⟩
  · intro ds hb _
    exact ⟨rfl, rfl, rfl, fun _ h => h, mixOut_bytes hM _ _ (Nat.le_refl _) _ (nonEmpty_bytes hb).1 (nonEmpty_bytes hb).2⟩
  intro l fut _ hl hpr _
  subst hpr
  refine ⟨rfl, by rw [hl.prev]; rfl, .inl ⟨[], iinv_start _ ⟨hl.index, hl.st, hl.fLoop, hl.fMatch, hl.fPending⟩
    (by rw [hM.len]; exact hM.pos) hl.curr (by rw [hl.prev]; rfl) (by rw [hl.q]; rfl) (by rw [hl.prev]; simp [Queue.empty])⟩⟩

end Verif.Engine
