import Verif.Proofs.EngineHandler
import Verif.Spec.Reader

/-! Decoding phases made of codecs that read bytes one by one, as a kind of phase. -/

namespace Verif.Engine
open Verif.Spec

variable {π : Type}

/-! ### The behaviour -/

/-- Decisions and empty data put out. -/
def decodeToks (rs : Nat → Reader π) (n : Nat) (p : Nat → π) : List Nat → Nat
  | [] => 0
  | b :: s =>
    match h : resume rs n 0 p [] (b :: s) with
    | (p', some (rest, out)) => 1 + empties out + decodeToks rs n p' rest
    | (p', none) => 1 + decodeToks rs n p' s
termination_by s => s.length
decreasing_by
  · have := resume_lt rs n 0 p [] (b :: s) h; simpa using this
  · simp

theorem decode_some {rs : Nat → Reader π} {n : Nat} {p p' : Nat → π} {s rest : List Nat} {out : List Datum} (hs : s ≠ [])
    (h : resume rs n 0 p [] s = (p', some (rest, out))) :
    decode rs n p s = { decode rs n p' rest with out := out ++ (decode rs n p' rest).out } ∧
    decodeToks rs n p s = 1 + empties out + decodeToks rs n p' rest := by
  obtain ⟨b, s, rfl⟩ := List.exists_cons_of_ne_nil hs
  refine ⟨?_, ?_⟩
  · rw [decode]
    split
    · rename_i q r o hq
      rw [h] at hq
      simp only [Prod.mk.injEq, Option.some.injEq] at hq
      obtain ⟨rfl, rfl, rfl⟩ := hq
      rfl
    · rename_i q hq; rw [h] at hq; simp at hq
  · rw [decodeToks]
    split
    · rename_i q r o hq
      rw [h] at hq
      simp only [Prod.mk.injEq, Option.some.injEq] at hq
      obtain ⟨rfl, rfl, rfl⟩ := hq
      rfl
    · rename_i q hq; rw [h] at hq; simp at hq

theorem decode_none {rs : Nat → Reader π} {n : Nat} {p p' : Nat → π} {b : Nat} {s : List Nat}
    (h : resume rs n 0 p [] (b :: s) = (p', none)) :
    decode rs n p (b :: s) = { decode rs n p' s with errors := (decode rs n p' s).errors + 1 } ∧
    decodeToks rs n p (b :: s) = 1 + decodeToks rs n p' s := by
  refine ⟨?_, ?_⟩
  · rw [decode]
    split
    · rename_i q r o hq; rw [h] at hq; simp at hq
    · rename_i q hq
      rw [h] at hq
      simp only [Prod.mk.injEq, and_true] at hq
      subst hq; rfl
  · rw [decodeToks]
    split
    · rename_i q r o hq; rw [h] at hq; simp at hq
    · rename_i q hq
      rw [h] at hq
      simp only [Prod.mk.injEq, and_true] at hq
      subst hq; rfl

theorem decode_nil (rs : Nat → Reader π) (n : Nat) (p : Nat → π) : decode rs n p [] = ⟨[], 0, p⟩ := by rw [decode]

/-- What a phase of readers will do. -/
def rbeh (rs : Nat → Reader π) (n : Nat) (p : Nat → π) : Beh π where
  out := fun ds => (decode rs n p ds.flatten).out
  inE := fun ds => (decode rs n p ds.flatten).errors
  outE := fun _ => 0
  toks := fun ds => decodeToks rs n p ds.flatten
  fin := fun ds q => q = (decode rs n p ds.flatten).priv
  congr := by intro a b h; simp only [flatten_congr h, true_and]

theorem read_append (r : Reader π) (t : π) (u a b : List Nat) :
    r.read t u (a ++ b) = (match r.read t u a with
      | .ended t' => r.read t' (u ++ a) b
      | .done rest t' o => .done (rest ++ b) t' o
      | .dead t' => .dead t') := by
  induction a generalizing t u with
  | nil => simp [Reader.read]
  | cons c a ih =>
    simp only [List.cons_append, Reader.read]
    cases r.step t u c with
    | more t' => simp only [ih, List.append_assoc, List.singleton_append]
    | done t' o => simp
    | dead t' => simp

/-- Continuation of `resume` after codec `j` failed. -/
def retry (rs : Nat → Reader π) (k j : Nat) (p : Nat → π) (s : List Nat) : (Nat → π) × Option (List Nat × List Datum) :=
  match k with
  | 0 => (p, none)
  | k + 1 => resume rs k (j + 1) p [] s

theorem resume_eq (rs : Nat → Reader π) (k j : Nat) (p : Nat → π) (u rest : List Nat) :
    resume rs k j p u rest = (match (rs j).read (p j) u rest with
      | .done rest' t out => (setPriv p j t, some (rest', out))
      | .dead t => retry rs k j (setPriv p j t) (u ++ rest)
      | .ended t => retry rs k j (setPriv p j t) (u ++ rest)) := by
  cases k <;> · rw [resume]; rfl

/-! ### What one codec does in the engine -/

/-- The fields left alone while a codec reads; its private data are `t` now. -/
structure RKept (j : Nat) (l l' : Loc π) (t : π) : Prop where
  prev : l'.prev = l.prev
  head : l'.prevHeadLen = l.prevHeadLen
  ierr : l'.ierr = l.ierr
  oerr : l'.oerr = l.oerr
  index : l'.ph.index = l.ph.index
  curr : l'.ph.curr = l.ph.curr
  consumed : l'.ph.consumed = l.ph.consumed
  fmatch : l'.ph.fMatch = false
  q : l'.ph.q = l.ph.q
  priv : l'.ph.priv = setPriv l.ph.priv j t

/-- A token was converted. -/
structure RDone (j : Nat) (l l' : Loc π) (t : π) (out : List Datum) (left : List Nat) : Prop where
  prev : l'.prev = l.prev.listFree l.ph.curr
  head : l'.prevHeadLen = l.prevHeadLen
  ierr : l'.ierr = l.ierr
  oerr : l'.oerr = l.oerr
  index : l'.ph.index = 0
  st : l'.ph.st = 0
  loop : l'.ph.fLoop = false
  pend : l'.ph.fPending = false
  fmatch : l'.ph.fMatch = false
  curr : l'.ph.curr = 0
  consumed : (l.prev.get l.ph.curr).drop l'.ph.consumed = left
  q : l'.ph.q = l.ph.q.pushAll out
  priv : l'.ph.priv = setPriv l.ph.priv j t

/-- The engine does what the codec's answer to the bytes `pre` says; `post` follow in the same piece of input. -/
def RPost (s : Static π) (j : Nat) (At : List Nat → Ph π → Prop) (l : Loc π) (u pre post : List Nat) : Read π → Prop
  | .ended t => ∃ l', LReach s .fromInner l l' (.goto .fromInner) ∧ RKept j l l' t ∧ l'.ph.fPending = true ∧
      (l.prev.get l.ph.curr).drop l'.ph.i = post ∧ At (u ++ pre) l'.ph
  | .dead t => ∃ l', LReach s .fromInner l l' (.goto .fromDead) ∧ RKept j l l' t
  | .done rest t out => ∃ l', LReach s .fromInner l l' .nextBegin ∧ RDone j l l' t out (rest ++ post)

/-- Codec `j` of phase `s` is the reader `r`; `At u` says that its automaton is where it is after the bytes `u`. -/
structure RMember (s : Static π) (j : Nat) (r : Reader π) (I : π → Prop) (At : List Nat → Ph π → Prop) : Prop where
  start : ∀ p : Ph π, p.index = j → p.st = 0 → p.fLoop = false → At [] p
  same : ∀ u (p p' : Ph π), At u p → p'.index = p.index → p'.st = p.st → p'.offset = p.offset → p'.fLoop = p.fLoop → At u p'
  step : ∀ (l : Loc π) (u : List Nat), At u l.ph → l.ph.index = j → l.ph.fMatch = false → 1 ≤ l.ph.curr → I (l.ph.priv j) →
    IsBytes (l.prev.get l.ph.curr) → l.ph.i < (l.prev.get l.ph.curr).length →
    ∃ pre post, (l.prev.get l.ph.curr).drop l.ph.i = pre ++ post ∧ pre ≠ [] ∧
      RPost s j At l u pre post (r.read (l.ph.priv j) u pre)
  sound : ∀ t u b, I t → b < 256 → match r.step t u b with
    | .more t' => I t'
    | .dead t' => I t'
    | .done t' out => I t' ∧ ∀ x ∈ out, IsBytes x

/-- A phase of readers, with an invariant of their private data. -/
structure Readers (s : Static π) (rs : Nat → Reader π) (I : Nat → π → Prop) (At : Nat → List Nat → Ph π → Prop) : Prop where
  isFrom : s.type = .from_
  member : ∀ j, j ≤ s.codecn → RMember s j (rs j) (I j) (At j)

theorem RMember.read {s : Static π} {j : Nat} {r : Reader π} {I : π → Prop} {At : List Nat → Ph π → Prop}
    (h : RMember s j r I At) {t : π} {u bs : List Nat} (ht : I t) (hb : ∀ b ∈ bs, b < 256) :
    match r.read t u bs with
    | .ended t' => I t'
    | .dead t' => I t'
    | .done _ t' out => I t' ∧ ∀ x ∈ out, IsBytes x := by
  induction bs generalizing t u with
  | nil => exact ht
  | cons b bs ih =>
    have := h.sound t u b ht (hb b (by simp))
    simp only [Reader.read]
    cases hs : r.step t u b with
    | more t' => rw [hs] at this; exact ih this (fun c hc => hb c (by simp [hc]))
    | done t' o => rw [hs] at this; exact this
    | dead t' => rw [hs] at this; exact this

/-! ### The invariant -/

/-- What holds while codec `index` is at work or has just failed. -/
structure RCore (s : Static π) (I : Nat → π → Prop) (F : Beh π) (l : Loc π) (u rest fut : List Nat) : Prop where
  qOk : l.ph.q.Ok
  prevOk : l.prev.Ok
  bytes : ∀ d ∈ l.prev.items, IsBytes d
  currle : l.ph.curr ≤ l.prev.items.length
  idx : l.ph.index ≤ s.codecn
  head : l.prevHeadLen = 0
  fm : l.ph.fMatch = false
  inv : ∀ j, I j (l.ph.priv j)
  pos : unread l.prev.items 1 l.ph.consumed = u ++ rest
  zero : l.prev.items = [] → l.ph.consumed = 0
  safe : F.inE [u ++ rest ++ fut] = 0 ∨ l.prev.items.length ≤ 1

/-- The invariant: `u` are the bytes the current codec has read, `rest` the unread ones, `fut` those still to come. -/
structure RInv (s : Static π) (rs : Nat → Reader π) (I : Nat → π → Prop) (At : Nat → List Nat → Ph π → Prop) (F : Beh π) (l : Loc π)
    (u rest fut : List Nat) : Prop extends RCore s I F l u rest fut where
  at_ : At l.ph.index u l.ph
  pend : l.ph.fPending = true ↔ u ≠ []
  currpos : u ≠ [] → 1 ≤ l.ph.curr
  beh : ∃ p0, F = rbeh rs s.codecn p0 ∧
    resume rs s.codecn 0 p0 [] (u ++ rest ++ fut) = resume rs (s.codecn - l.ph.index) l.ph.index l.ph.priv u (rest ++ fut) ∧
    (u ++ rest = [] → p0 = l.ph.priv)

/-- Result of a visit that decided nothing. -/
structure RQuiet (s : Static π) (rs : Nat → Reader π) (I : Nat → π → Prop) (At : Nat → List Nat → Ph π → Prop) (F : Beh π)
    (l l' : Loc π) (rem fut : List Nat) : Prop where
  inv : RInv s rs I At F l' rem [] fut
  prev : l'.prev = l.prev
  q : l'.ph.q = l.ph.q
  ierr : l'.ierr = l.ierr
  oerr : l'.oerr = l.oerr
  head : l'.prevHeadLen = l.prevHeadLen
  index : l.ph.index ≤ l'.ph.index
  curr : l'.ph.curr = l.prev.items.length

/-- Result of a decision. -/
structure RDecide (s : Static π) (rs : Nat → Reader π) (I : Nat → π → Prop) (At : Nat → List Nat → Ph π → Prop) (F : Beh π)
    (l l' : Loc π) (rem fut : List Nat) (F' : Beh π) (rest' : List Nat) (em : List Datum) : Prop where
  inv : RInv s rs I At F' l' [] rest' fut
  or : rest' = outerRest l'
  q : l'.ph.q = l.ph.q.pushAll em
  bytes : ∀ d ∈ em, IsBytes d
  out : F.out [rem ++ fut] = em ++ F'.out [rest' ++ fut]
  ierr : l'.ierr + F'.inE [rest' ++ fut] = l.ierr + F.inE [rem ++ fut]
  ile : F'.inE [rest' ++ fut] ≤ F.inE [rem ++ fut]
  oE : F.outE [rem ++ fut] = 0 ∧ F'.outE [rest' ++ fut] = 0
  fin : F'.fin [rest' ++ fut] = F.fin [rem ++ fut]
  toks : F'.toks [rest' ++ fut] + 1 + empties em ≤ F.toks [rem ++ fut]
  oerr : l'.oerr = l.oerr
  plen : l'.prev.items.length ≤ l.prev.items.length
  ne : l'.prev.items ≠ []
  curr : l'.ph.curr = 0
  head : l'.prevHeadLen = l.prevHeadLen

theorem RQuiet.of_same {s : Static π} {rs : Nat → Reader π} {I : Nat → π → Prop} {At : Nat → List Nat → Ph π → Prop} {F : Beh π}
    {l l1 l' : Loc π} {rem fut : List Nat} (h : RQuiet s rs I At F l1 l' rem fut) (h1 : l1.prev = l.prev)
    (h2 : l1.ph.q = l.ph.q) (h3 : l1.ierr = l.ierr) (h4 : l1.oerr = l.oerr)
    (h5 : l1.prevHeadLen = l.prevHeadLen) (h6 : l.ph.index ≤ l1.ph.index) : RQuiet s rs I At F l l' rem fut :=
  ⟨h.inv, h.prev.trans h1, h.q.trans h2, h.ierr.trans h3, h.oerr.trans h4, h.head.trans h5,
    Nat.le_trans h6 h.index, by rw [h.curr, h1]⟩

theorem RDecide.of_same {s : Static π} {rs : Nat → Reader π} {I : Nat → π → Prop} {At : Nat → List Nat → Ph π → Prop} {F F' : Beh π}
    {l l1 l' : Loc π} {rem fut rest' : List Nat} {em : List Datum} (h : RDecide s rs I At F l1 l' rem fut F' rest' em)
    (h1 : l1.prev = l.prev) (h2 : l1.ph.q = l.ph.q) (h3 : l1.ierr = l.ierr) (h4 : l1.oerr = l.oerr)
    (h5 : l1.prevHeadLen = l.prevHeadLen) : RDecide s rs I At F l l' rem fut F' rest' em :=
  ⟨h.inv, h.or, by rw [h.q, h2], h.bytes, h.out, by rw [h.ierr, h3], h.ile, h.oE, h.fin, h.toks, h.oerr.trans h4, by rw [← h1]; exact h.plen,
    h.ne, h.curr, h.head.trans h5⟩

/-- `from_deadend` when the current codec has failed on the token. -/
theorem r_dead {s : Static π} {rs : Nat → Reader π} {I : Nat → π → Prop} {At : Nat → List Nat → Ph π → Prop} (hR : Readers s rs I At)
    {F : Beh π} {l : Loc π} {u rest fut : List Nat} (hc : RCore s I F l u rest fut) (hne : u ++ rest ≠ []) (hcur : 1 ≤ l.ph.curr)
    (hb : ∃ p0, F = rbeh rs s.codecn p0 ∧ resume rs s.codecn 0 p0 [] (u ++ rest ++ fut) =
      retry rs (s.codecn - l.ph.index) l.ph.index l.ph.priv (u ++ rest ++ fut)) :
    (∃ l' F' rest' em, LReach s .fromDead l l' (.goto .fromInner) ∧ RDecide s rs I At F l l' (u ++ rest) fut F' rest' em) ∨
    (∃ l', LReach s .fromDead l l' (.goto .fromInner) ∧ RInv s rs I At F l' [] (u ++ rest) fut ∧
      l'.ph.curr = 0 ∧ l'.ph.index = l.ph.index + 1 ∧ l.ph.index < s.codecn ∧
      l'.prev = l.prev ∧ l'.ph.q = l.ph.q ∧ l'.ierr = l.ierr ∧ l'.oerr = l.oerr ∧
      l'.prevHeadLen = l.prevHeadLen ∧ u ++ rest = innerRest l') := by
  obtain ⟨p0, hF, hres⟩ := hb
  by_cases hi : l.ph.index < s.codecn
  · right
    have hk : s.codecn - l.ph.index = (s.codecn - (l.ph.index + 1)) + 1 := by omega
    rw [hk] at hres
    refine ⟨_, .one rfl (by
      simp only [localStep, fromDead, hc.fm, Bool.false_eq_true, if_false, if_pos hi]; rfl), ?_⟩
    refine ⟨⟨⟨hc.qOk, hc.prevOk, hc.bytes, by simp, ?_, hc.head, rfl, hc.inv, by simpa using hc.pos, hc.zero, ?_⟩, ?_, ?_, ?_, ?_⟩,
      rfl, rfl, hi, rfl, rfl, rfl, rfl, rfl, ?_⟩
    · show l.ph.index + 1 ≤ _; omega
    · simpa using hc.safe
    · exact (hR.member (l.ph.index + 1) (by omega)).start _ rfl rfl rfl
    · simp
    · simp
    · exact ⟨p0, hF, by simpa [retry] using hres, by intro h; simp at h; simp [h] at hne⟩
    · simp [innerRest, hc.pos]
  · left
    have hk : s.codecn - l.ph.index = 0 := by omega
    rw [hk] at hres
    obtain ⟨a, t, hat⟩ := List.exists_cons_of_ne_nil hne
    have hres' : resume rs s.codecn 0 p0 [] (a :: (t ++ fut)) = (l.ph.priv, none) := by
      have : u ++ rest ++ fut = a :: (t ++ fut) := by rw [hat]; rfl
      rw [← this, hres]; rfl
    obtain ⟨d1, d2⟩ := decode_none hres'
    have hlen : l.prev.items.length ≤ 1 := by
      rcases hc.safe with h | h
      · rw [hF, hat] at h
        simp only [rbeh, List.flatten_cons, List.flatten_nil, List.append_nil, List.cons_append] at h
        rw [d1] at h; simp at h
      · exact h
    have hcur1 : l.ph.curr = 1 := by have := hc.currle; omega
    obtain ⟨hp1, hp2⟩ := Queue.listFree_ok hc.prevOk l.ph.curr
    have hp2' : (l.prev.listFree l.ph.curr).items = l.prev.items := by rw [hp2, hcur1]; rfl
    have hcl : l.ph.consumed < (l.prev.items.getD 0 []).length := by
      rcases Nat.lt_or_ge l.ph.consumed (l.prev.items.getD 0 []).length with h | h
      · exact h
      · exfalso
        have h3 : unread l.prev.items 1 l.ph.consumed = (l.prev.items.drop 1).flatten := unread_next (by simpa using h)
        have h2 := hc.pos
        rw [h3, List.drop_of_length_le hlen, hat] at h2
        simp at h2
    have hur : unread l.prev.items 1 (l.ph.consumed + 1) = t := by
      have := unread_cons (ds := l.prev.items) (k := 1) hcl
      rw [hc.pos, hat] at this
      exact (List.cons.inj this).2.symm
    refine ⟨_, rbeh rs s.codecn l.ph.priv, t, [], .one rfl (by
      simp only [localStep, fromDead, hc.fm, Bool.false_eq_true, if_false, if_neg hi]; rfl), ?_⟩
    have hfl : ∀ x : List Nat, ([x] : List (List Nat)).flatten = x := by simp
    refine ⟨⟨⟨hc.qOk, hp1, by
        show ∀ d ∈ (l.prev.listFree l.ph.curr).items, IsBytes d
        rw [hp2']; exact hc.bytes, by simp [Ph.reset], by simp [Ph.reset], hc.head, by simp [Ph.reset],
      hc.inv, ?_, ?_, .inr (by show (l.prev.listFree l.ph.curr).items.length ≤ 1; rw [hp2']; exact hlen)⟩, ?_, ?_, ?_, ?_⟩, ?_, rfl, by simp, ?_, ?_, ?_, ⟨?_, rfl⟩, ?_, ?_, rfl, ?_, ?_, rfl, rfl⟩
    · simp only [Ph.reset, List.nil_append]; rw [hp2', hur]
    · intro h
      replace h : (l.prev.listFree l.ph.curr).items = [] := h
      rw [hp2'] at h
      have := hc.currle
      rw [h] at this; simp at this; omega
    · exact (hR.member 0 (by omega)).start _ rfl rfl rfl
    · simp [Ph.reset]
    · simp
    · exact ⟨l.ph.priv, rfl, by simp [Ph.reset], fun _ => rfl⟩
    · simp only [outerRest, Ph.reset, if_true]; rw [hp2', hur]
    · rw [hF, hat]; simp only [rbeh, hfl, List.cons_append, d1]; rfl
    · rw [hF, hat]; simp only [rbeh, hfl, List.cons_append, d1]; omega
    · rw [hF, hat]; simp only [rbeh, hfl, List.cons_append, d1]; omega
    · rw [hF]; rfl
    · rw [hF, hat]; simp only [rbeh, hfl, List.cons_append, d1]
    · rw [hF, hat]; simp only [rbeh, hfl, List.cons_append, d2, empties]; simp; omega
    · simp only [Ph.reset]; rw [hp2']; exact Nat.le_refl _
    · simp only [Ph.reset]; rw [hp2']
      intro h
      have h2 := hc.currle
      rw [h] at h2
      simp at h2; omega

theorem setPriv_setPriv (p : Nat → π) (j : Nat) (t t' : π) : setPriv (setPriv p j t) j t' = setPriv p j t' := by
  funext k; simp only [setPriv]; split <;> rfl

theorem resume_ended {rs : Nat → Reader π} {k j : Nat} {p : Nat → π} {u pre : List Nat} {t : π}
    (h : (rs j).read (p j) u pre = .ended t) (x : List Nat) :
    resume rs k j p u (pre ++ x) = resume rs k j (setPriv p j t) (u ++ pre) x := by
  rw [resume_eq, resume_eq, read_append, h]
  have e : setPriv p j t j = t := by simp [setPriv]
  simp only [e, setPriv_setPriv, List.append_assoc]

/-- A visit to a decoding phase from the inner loop test. -/
theorem r_inner {s : Static π} {rs : Nat → Reader π} {I : Nat → π → Prop} {At : Nat → List Nat → Ph π → Prop} (hR : Readers s rs I At)
    (F : Beh π) (l : Loc π) (u rest fut : List Nat) (hi : RInv s rs I At F l u rest fut) (hr : rest = innerRest l) :
    (∃ l', LReach s .fromInner l l' (.goto .leave) ∧ RQuiet s rs I At F l l' (u ++ rest) fut) ∨
    (∃ l' ctl F' rest' em, LReach s .fromInner l l' ctl ∧ FromCtl ctl ∧ RDecide s rs I At F l l' (u ++ rest) fut F' rest' em) := by
  by_cases hin : l.ph.curr ≠ 0 ∧ l.ph.i < (l.prev.get l.ph.curr).length
  · obtain ⟨hcur, hlt⟩ := hin
    have hcN : 1 ≤ l.ph.curr := by omega
    have hM := hR.member _ hi.idx
    have hcl := hi.currle
    have hgb : IsBytes (l.prev.get l.ph.curr) := by
      have hlt' : l.ph.curr - 1 < l.prev.items.length := by omega
      have : l.prev.get l.ph.curr = l.prev.items[l.ph.curr - 1] := by
        simp [Queue.get, List.getD_eq_getElem?_getD, List.getElem?_eq_getElem hlt']
      rw [this]; exact hi.bytes _ (List.getElem_mem hlt')
    obtain ⟨pre, post, hpp, hpre, hpost⟩ := hM.step l u hi.at_ rfl hi.fm hcN (hi.inv _) hgb hlt
    generalize htail : (l.prev.items.drop l.ph.curr).flatten = tail
    have hrest : rest = pre ++ (post ++ tail) := by
      rw [hr, innerRest, if_neg hcur, unread, htail]
      rw [getD_get] at hpp
      rw [hpp, List.append_assoc]
    have hpb : ∀ b ∈ pre, b < 256 := by
      intro b hb
      apply hgb
      have : b ∈ (l.prev.get l.ph.curr).drop l.ph.i := by rw [hpp]; simp [hb]
      exact List.mem_of_mem_drop this
    have hsound := hM.read (u := u) (hi.inv l.ph.index) hpb
    obtain ⟨p0, hF, hres, hz⟩ := hi.beh
    rw [hrest] at hres
    simp only [List.append_assoc] at hres
    have hrem : u ++ rest = (u ++ pre) ++ (post ++ tail) := by rw [hrest]; simp
    cases hrd : (rs l.ph.index).read (l.ph.priv l.ph.index) u pre with
    | ended t =>
      rw [hrd] at hpost hsound
      obtain ⟨l1, g1, g2, g3, g4, g5⟩ := hpost
      rw [resume_ended hrd] at hres
      have hor : innerRest l1 = post ++ tail := by
        rw [innerRest, g2.curr, if_neg hcur, g2.prev, unread, htail]
        rw [getD_get] at g4
        rw [g4]
      have hinv : RInv s rs I At F l1 (u ++ pre) (post ++ tail) fut := by
        refine ⟨⟨by rw [g2.q]; exact hi.qOk, by rw [g2.prev]; exact hi.prevOk, by rw [g2.prev]; exact hi.bytes, by rw [g2.prev, g2.curr]; exact hi.currle,
          by rw [g2.index]; exact hi.idx, by rw [g2.head]; exact hi.head, g2.fmatch, by rw [g2.priv]; exact setPriv_inv hi.inv hsound,
          by rw [g2.prev, g2.consumed, hi.pos, hrem], by rw [g2.prev, g2.consumed]; exact hi.zero, by rw [g2.prev, ← hrem]; exact hi.safe⟩,
          by rw [g2.index]; exact g5, by rw [g3]; simp [hpre], fun _ => by rw [g2.curr]; exact hcN, p0, hF, ?_, fun h => by simp [hpre] at h⟩
        rw [g2.index, g2.priv]
        simp only [List.append_assoc] at hres ⊢
        exact hres
      have hdec : (innerRest l1).length < (innerRest l).length := by
        rw [hor, ← hr, hrest]
        have := List.length_pos_iff.2 hpre
        simp only [List.length_append]; omega
      have := g2.prev
      have := g2.curr
      have := g2.index
      rcases r_inner hR F l1 (u ++ pre) (post ++ tail) fut hinv hor.symm with ⟨l2, k1, k2⟩ | ⟨l2, ctl, F', rest', em, k1, k2, k3⟩
      · left
        refine ⟨l2, g1.trans k1, ?_⟩
        rw [hrem]
        exact k2.of_same g2.prev g2.q g2.ierr g2.oerr g2.head (by rw [g2.index]; exact Nat.le_refl _)
      · right
        refine ⟨l2, ctl, F', rest', em, g1.trans k1, k2, ?_⟩
        rw [hrem]
        exact k3.of_same g2.prev g2.q g2.ierr g2.oerr g2.head
    | dead t =>
      rw [hrd] at hpost hsound
      obtain ⟨l1, g1, g2⟩ := hpost
      have hcore : RCore s I F l1 u rest fut :=
        ⟨by rw [g2.q]; exact hi.qOk, by rw [g2.prev]; exact hi.prevOk, by rw [g2.prev]; exact hi.bytes, by rw [g2.prev, g2.curr]; exact hi.currle,
          by rw [g2.index]; exact hi.idx, by rw [g2.head]; exact hi.head, g2.fmatch, by rw [g2.priv]; exact setPriv_inv hi.inv hsound,
          by rw [g2.prev, g2.consumed, hi.pos], by rw [g2.prev, g2.consumed]; exact hi.zero, by rw [g2.prev]; exact hi.safe⟩
      have hres' : resume rs s.codecn 0 p0 [] (u ++ rest ++ fut) =
          retry rs (s.codecn - l1.ph.index) l1.ph.index l1.ph.priv (u ++ rest ++ fut) := by
        rw [hrest]
        simp only [List.append_assoc]
        rw [hres, g2.index, g2.priv, resume_eq, read_append, hrd]
      rcases r_dead hR hcore (by rw [hrest]; simp [hpre]) (by rw [g2.curr]; exact hcN) ⟨p0, hF, hres'⟩ with
        ⟨l2, F', rest', em, k1, k2⟩ | ⟨l2, k1, k2, k3, k4, k5, k6, k7, k8, k9, k10, k11⟩
      · right
        refine ⟨l2, .goto .fromOuter, F', rest', em, g1.trans (k1.trans (.one rfl ?_)), .inr (.inl rfl), ?_⟩
        · have := k2.inv.head
          simp [localStep, fromInner, k2.curr, this]
        · exact k2.of_same g2.prev g2.q g2.ierr g2.oerr g2.head
      · have := g2.index
        rcases r_inner hR F l2 [] (u ++ rest) fut k2 k11 with ⟨l3, m1, m2⟩ | ⟨l3, ctl, F', rest', em, m1, m2, m3⟩
        · left
          refine ⟨l3, g1.trans (k1.trans m1), ?_⟩
          exact m2.of_same (k6.trans g2.prev) (k7.trans g2.q) (k8.trans g2.ierr) (k9.trans g2.oerr) (k10.trans g2.head)
            (by rw [k4, g2.index]; omega)
        · right
          refine ⟨l3, ctl, F', rest', em, g1.trans (k1.trans m1), m2, ?_⟩
          exact m3.of_same (k6.trans g2.prev) (k7.trans g2.q) (k8.trans g2.ierr) (k9.trans g2.oerr) (k10.trans g2.head)
    | done rest0 t out =>
      rw [hrd] at hpost hsound
      obtain ⟨l1, g1, g2⟩ := hpost
      right
      refine ⟨l1, .nextBegin, rbeh rs s.codecn l1.ph.priv, rest0 ++ (post ++ tail), out, g1, .inr (.inr rfl), ?_⟩
      have hres' : resume rs s.codecn 0 p0 [] (u ++ rest ++ fut) = (l1.ph.priv, some (rest0 ++ (post ++ tail) ++ fut, out)) := by
        rw [hrest]
        simp only [List.append_assoc]
        rw [hres, g2.priv, resume_eq, read_append, hrd]
      have hsne : u ++ rest ++ fut ≠ [] := by rw [hrest]; simp [hpre]
      obtain ⟨d1, d2⟩ := decode_some hsne hres'
      have hfl : ∀ x : List Nat, ([x] : List (List Nat)).flatten = x := by simp
      obtain ⟨hp1, hp2⟩ := Queue.listFree_ok hi.prevOk l.ph.curr
      have hcons : unread (l.prev.listFree l.ph.curr).items 1 l1.ph.consumed = rest0 ++ (post ++ tail) := by
        rw [hp2, unread_drop_pred _ _ _ hcN, unread, htail]
        have := g2.consumed
        rw [getD_get] at this
        rw [this, List.append_assoc]
      have hnel : (l.prev.listFree l.ph.curr).items ≠ [] := by
        rw [hp2]; intro h
        have := congrArg List.length h
        simp at this; omega
      refine ⟨⟨⟨by rw [g2.q]; exact (Queue.pushAll_ok hi.qOk _).1, by rw [g2.prev]; exact hp1, ?_, by rw [g2.curr]; omega, by rw [g2.index]; omega,
        by rw [g2.head]; exact hi.head, g2.fmatch, by rw [g2.priv]; exact setPriv_inv hi.inv hsound.1, ?_, ?_, ?_⟩, ?_, ?_, by simp, ?_⟩,
        ?_, g2.q, hsound.2, ?_, ?_, ?_, ⟨by rw [hF]; rfl, rfl⟩, ?_, ?_, g2.oerr, ?_, ?_, g2.curr, g2.head⟩
      · rw [g2.prev, hp2]; exact fun d hd => hi.bytes d (List.mem_of_mem_drop hd)
      · rw [g2.prev, hcons]; rfl
      · rw [g2.prev]; exact fun h => absurd h hnel
      · rcases hi.safe with h | h
        · left
          rw [hF] at h
          simp only [rbeh, hfl] at h ⊢
          rw [d1] at h
          simpa using h
        · right
          rw [g2.prev, hp2, List.length_drop]; omega
      · rw [g2.index]
        exact (hR.member 0 (by omega)).start _ g2.index g2.st g2.loop
      · rw [g2.pend]; simp
      · exact ⟨_, rfl, by rw [g2.index]; simp, fun _ => rfl⟩
      · rw [outerRest, g2.curr, if_pos rfl, g2.prev, hcons]
      · rw [hF]; simp only [rbeh, hfl, d1]
      · rw [hF]; simp only [rbeh, hfl, d1]; rw [g2.ierr]
      · rw [hF]; simp only [rbeh, hfl, d1]; exact Nat.le_refl _
      · rw [hF]; simp only [rbeh, hfl, d1]
      · rw [hF]; simp only [rbeh, hfl, d2]; omega
      · rw [g2.prev, hp2, List.length_drop]; omega
      · rw [g2.prev]; exact hnel
  · have hstep : localStep s .fromInner l = (l, .goto .fromOuter) := by
      by_cases hc0 : l.ph.curr = 0
      · simp [localStep, fromInner, hc0, hi.head]
      · have : ¬ l.ph.i < (l.prev.get l.ph.curr).length := fun h => hin ⟨hc0, h⟩
        simp only [localStep, fromInner, if_neg hc0, dif_neg this]
    have hor : rest = outerRest l := by
      rw [hr]; unfold innerRest outerRest
      by_cases hc0 : l.ph.curr = 0
      · simp [hc0]
      · rw [if_neg hc0, if_neg hc0]
        exact unread_next (fun h => hin ⟨hc0, h⟩)
    by_cases hnext : l.ph.curr < l.prev.items.length
    · have hstep2 : localStep s .fromOuter l = ({ l with ph := { l.ph with
          i := if l.ph.curr = 0 then l.ph.consumed else 0
          curr := l.ph.curr + 1 } }, .goto .fromInner) := by
        simp only [localStep, fromOuter, Queue.hasNext, decide_eq_true hnext, if_true]
      generalize hl2 : ({ l with ph := { l.ph with
          i := if l.ph.curr = 0 then l.ph.consumed else 0
          curr := l.ph.curr + 1 } } : Loc π) = l2 at hstep2
      have hinv : RInv s rs I At F l2 u rest fut := by
        subst hl2
        exact ⟨⟨hi.qOk, hi.prevOk, hi.bytes, hnext, hi.idx, hi.head, hi.fm, hi.inv, hi.pos, hi.zero, hi.safe⟩,
          (hR.member _ hi.idx).same _ _ _ hi.at_ rfl rfl rfl rfl, hi.pend, fun _ => by simp, hi.beh⟩
      have f1 : l2.prev = l.prev := by subst hl2; rfl
      have f9 : l2.ph.curr = l.ph.curr + 1 := by subst hl2; rfl
      have f6 : l2.ph.index = l.ph.index := by subst hl2; rfl
      have hir : rest = innerRest l2 := by
        rw [hor]
        unfold innerRest outerRest
        have f9' : ¬ l2.ph.curr = 0 := by omega
        rw [if_neg f9']
        by_cases hc0 : l.ph.curr = 0
        · subst hl2; simp [hc0]
        · rw [if_neg hc0, drop_flatten hnext]
          subst hl2; simp [hc0]
      have hir2 : (innerRest l2).length = (innerRest l).length := by rw [← hir, hr]
      rcases r_inner hR F l2 u rest fut hinv hir with ⟨l3, k1, k2⟩ | ⟨l3, ctl, F', rest', em, k1, k2, k3⟩
      · left
        refine ⟨l3, .cons rfl hstep (.cons rfl hstep2 k1), ?_⟩
        refine k2.of_same f1 ?_ ?_ ?_ ?_ (by rw [f6]; exact Nat.le_refl _) <;> subst hl2 <;> rfl
      · right
        refine ⟨l3, ctl, F', rest', em, .cons rfl hstep (.cons rfl hstep2 k1), k2, ?_⟩
        refine k3.of_same f1 ?_ ?_ ?_ ?_ <;> subst hl2 <;> rfl
    · left
      have hstep2 : localStep s .fromOuter l = (l, .goto .leave) := by
        simp only [localStep, fromOuter, Queue.hasNext, decide_eq_false hnext]; rfl
      have hrnil : rest = [] := by
        rw [hor]; unfold outerRest
        have := hi.currle
        by_cases hc0 : l.ph.curr = 0
        · have hN : l.prev.items = [] := List.length_eq_zero_iff.1 (by omega)
          simp [hc0, unread, hN]
        · rw [if_neg hc0, List.drop_of_length_le (by omega)]; rfl
      subst hrnil
      rw [List.append_nil]
      refine ⟨l, .cons rfl hstep (.one rfl hstep2), hi, rfl, rfl, rfl, rfl, rfl, Nat.le_refl _, ?_⟩
      have := hi.currle; omega
termination_by (s.codecn - l.ph.index, (innerRest l).length + (l.prev.items.length - l.ph.curr))
decreasing_by
  · apply Prod.Lex.right'
    · omega
    · rw [g2.prev, g2.curr]; omega
  · apply Prod.Lex.left; omega
  · apply Prod.Lex.right'
    · omega
    · have := hir2; simp only at this ⊢; omega

end Verif.Engine
