import Verif.Proofs.Placed
import Verif.Proofs.EngineReader2
import Verif.Spec.Scanner

/-! Decoding phases that follow a byte automaton on input it accepts, as a kind of phase. -/

namespace Verif.Engine
open Verif.Spec

variable {π Q : Type}

/-- Pieces of input and empty data put out. -/
def scanToks (sc : Scanner Q) : Q → List Nat → Nat
  | q, [] => if sc.rest q then 0 else match sc.last q with
    | none => 0
    | some o => 1 + empties o
  | q, b :: bs =>
    match sc.step q b with
    | none => 0
    | some (q', none) => scanToks sc q' bs
    | some (q', some o) => 1 + empties o + scanToks sc q' bs

/-- Reading `u` from state `q` without completing a piece of input leads to `q'`. -/
inductive Scanned (sc : Scanner Q) : Q → List Nat → Q → Prop
  | nil (q : Q) : Scanned sc q [] q
  | snoc {q q' q'' : Q} {u : List Nat} {b : Nat} : Scanned sc q u q' → sc.step q' b = some (q'', none) → Scanned sc q (u ++ [b]) q''

theorem Scanned.run {sc : Scanner Q} {q q' : Q} {u : List Nat} (h : Scanned sc q u q') (x : List Nat) :
    sc.run q (u ++ x) = sc.run q' x ∧ scanToks sc q (u ++ x) = scanToks sc q' x := by
  induction h generalizing x with
  | nil => exact ⟨rfl, rfl⟩
  | @snoc q2 q3 u b _ hs ih =>
    have := ih (b :: x)
    simp only [List.append_assoc, List.singleton_append]
    rw [this.1, this.2]
    simp only [Scanner.run, scanToks, hs]
    refine ⟨?_, trivial⟩
    cases sc.run q3 x <;> simp

/-- What it will do. -/
def sbeh (sc : Scanner Q) (q : Q) : Beh π where
  out := fun ds => (sc.run q ds.flatten).getD []
  inE := fun _ => 0
  outE := fun _ => 0
  toks := fun ds => scanToks sc q ds.flatten
  fin := fun _ _ => True
  congr := by intro a b h; simp only [flatten_congr h, true_and]

/-- The fields left alone when a byte is held. -/
structure SHold (l l' : Loc π) : Prop where
  prev : l'.prev = l.prev
  head : l'.prevHeadLen = l.prevHeadLen
  ierr : l'.ierr = l.ierr
  oerr : l'.oerr = l.oerr
  curr : l'.ph.curr = l.ph.curr
  i : l'.ph.i = l.ph.i + 1
  q : l'.ph.q = l.ph.q

/-- A piece of input was converted. -/
structure SDone (l l' : Loc π) (out : List Datum) : Prop where
  prev : l'.prev = l.prev.listFree l.ph.curr
  head : l'.prevHeadLen = l.prevHeadLen
  ierr : l'.ierr = l.ierr
  oerr : l'.oerr = l.oerr
  curr : l'.ph.curr = 0
  consumed : l'.ph.consumed = l.ph.i + 1
  q : l'.ph.q = l.ph.q.pushAll out

/-- The end of the input was converted. -/
structure SLast (l l' : Loc π) (out : List Datum) : Prop where
  prev : l'.prev = l.prev
  head : l'.prevHeadLen = l.prevHeadLen
  ierr : l'.ierr = l.ierr
  oerr : l'.oerr = l.oerr
  curr : l'.ph.curr = l.ph.curr
  consumed : l'.ph.consumed = l.ph.consumed
  q : l'.ph.q = l.ph.q.pushAll out

/-- The phase follows the automaton; `At q` describes the phase in state `q`. -/
structure Scans (s : Static π) (sc : Scanner Q) (At : Q → Ph π → Prop) : Prop where
  isFrom : s.type = .from_
  same : ∀ q (p : Ph π) x i k, At q p → At q { p with q := x, i := i, curr := k }
  pend : ∀ q (p : Ph π), At q p → p.fPending = !sc.rest q
  step : ∀ (l : Loc π) q b, At q l.ph → 1 ≤ l.ph.curr → (l.prev.get l.ph.curr)[l.ph.i]? = some b → b < 256 →
    match sc.step q b with
    | none => True
    | some (q', none) => sc.rest q' = false ∧ ∃ l', LReach s .fromInner l l' (.goto .fromInner) ∧ SHold l l' ∧ At q' l'.ph
    | some (q', some out) => sc.rest q' = true ∧ AllBytes out ∧ ∃ l', LReach s .fromInner l l' .nextBegin ∧ SDone l l' out ∧ At q' l'.ph
  last : ∀ (l : Loc π) q out, At q l.ph → sc.rest q = false → sc.last q = some out →
    AllBytes out ∧ ∃ l' q', LReach s .fromDead l l' (.goto .begin) ∧ SLast l l' out ∧ sc.rest q' = true ∧ At q' l'.ph

/-- The invariant: the bytes `u` have been read since the last piece of input, `rest` are at hand, `fut` will come. -/
structure SInv (sc : Scanner Q) (At : Q → Ph π → Prop) (F : Beh π) (l : Loc π) (q0 q : Q) (u rest fut : List Nat) : Prop where
  beh : F = sbeh sc q0
  qOk : l.ph.q.Ok
  prevOk : l.prev.Ok
  bytes : ∀ d ∈ l.prev.items, IsBytes d
  currle : l.ph.curr ≤ l.prev.items.length
  head : l.prevHeadLen = 0
  zero : l.prev.items = [] → l.ph.consumed = 0
  pos : u ≠ [] → 1 ≤ l.ph.curr
  holds : Scanned sc q0 u q
  start : sc.rest q0 = true
  uq : u = [] ↔ sc.rest q = true
  at_ : At q l.ph
  ok : (sc.run q (rest ++ fut)).isSome

variable {s : Static π} {sc : Scanner Q} {At : Q → Ph π → Prop} {F : Beh π} {l : Loc π} {q0 q : Q} {u rest fut : List Nat}

structure SQuiet (sc : Scanner Q) (At : Q → Ph π → Prop) (F : Beh π) (l l' : Loc π) (rem fut : List Nat) : Prop where
  inv : ∃ q0 q, SInv sc At F l' q0 q rem [] fut
  prev : l'.prev = l.prev
  q : l'.ph.q = l.ph.q
  ierr : l'.ierr = l.ierr
  oerr : l'.oerr = l.oerr
  head : l'.prevHeadLen = l.prevHeadLen
  curr : l'.ph.curr = l.prev.items.length

structure SDecide (sc : Scanner Q) (At : Q → Ph π → Prop) (F : Beh π) (l l' : Loc π) (rem fut : List Nat) (rest' : List Nat) (q' : Q)
    (em : List Datum) : Prop where
  inv : SInv sc At (sbeh sc q') l' q' q' [] rest' fut
  or : rest' = outerRest l'
  q : l'.ph.q = l.ph.q.pushAll em
  bytes : AllBytes em
  out : ∃ q0, F = sbeh sc q0 ∧ (sc.run q0 (rem ++ fut)) = (sc.run q' (rest' ++ fut)).map (em ++ ·) ∧
    scanToks sc q0 (rem ++ fut) = 1 + empties em + scanToks sc q' (rest' ++ fut)
  ierr : l'.ierr = l.ierr
  oerr : l'.oerr = l.oerr
  plen : l'.prev.items.length ≤ l.prev.items.length
  head : l'.prevHeadLen = l.prevHeadLen

theorem s_inner (hS : Scans s sc At) (n : Nat) : ∀ {l : Loc π} {q : Q} {u rest : List Nat}, SInv sc At F l q0 q u rest fut → rest = innerRest l → 1 ≤ l.ph.curr →
    rest.length + (l.prev.items.length - l.ph.curr) = n →
    (∃ l', LReach s .fromInner l l' (.goto .leave) ∧ SQuiet sc At F l l' (u ++ rest) fut) ∨
    (∃ l' rest' q' em, LReach s .fromInner l l' .nextBegin ∧ SDecide sc At F l l' (u ++ rest) fut rest' q' em) := by
  induction n using Nat.strongRecOn with
  | ind n ih =>
    intro l q u rest h hr hcur hn
    have hc0 : ¬ l.ph.curr = 0 := by omega
    by_cases hlt : l.ph.i < (l.prev.get l.ph.curr).length
    · -- a byte
      have hub : rest = (l.prev.get l.ph.curr)[l.ph.i] :: unread l.prev.items l.ph.curr (l.ph.i + 1) := by
        rw [hr, innerRest, if_neg hc0]
        exact unread_cons hlt
      have hb : (l.prev.get l.ph.curr)[l.ph.i] < 256 := by
        have hcl := h.currle
        have hlt' : l.ph.curr - 1 < l.prev.items.length := by omega
        have hg : l.prev.get l.ph.curr = l.prev.items[l.ph.curr - 1] := by
          simp [Queue.get, List.getD_eq_getElem?_getD, List.getElem?_eq_getElem hlt']
        exact h.bytes (l.prev.get l.ph.curr) (hg ▸ List.getElem_mem hlt') _ (List.getElem_mem hlt)
      have hst := hS.step l q _ h.at_ hcur (List.getElem?_eq_getElem hlt) hb
      have hok := h.ok
      generalize (l.prev.get l.ph.curr)[l.ph.i] = b at hub hst hb
      rw [hub] at hok
      simp only [List.cons_append, Scanner.run] at hok
      cases hs : sc.step q b with
      | none => rw [hs] at hok; simp at hok
      | some r =>
        obtain ⟨q', o⟩ := r
        rw [hs] at hst hok
        cases o with
        | none =>
          obtain ⟨g0, l1, g1, g2, g3⟩ := hst
          have hok' : (sc.run q' (unread l.prev.items l.ph.curr (l.ph.i + 1) ++ fut)).isSome := by
            simpa using hok
          have hinv : SInv sc At F l1 q0 q' (u ++ [b]) (unread l.prev.items l.ph.curr (l.ph.i + 1)) fut :=
            ⟨h.beh, by rw [g2.q]; exact h.qOk, by rw [g2.prev]; exact h.prevOk, by rw [g2.prev]; exact h.bytes,
              by rw [g2.prev, g2.curr]; exact h.currle, by rw [g2.head]; exact h.head,
              by
                intro k
                have := h.currle
                rw [g2.prev] at k
                rw [k] at this
                simp at this; omega,
              fun _ => by rw [g2.curr]; exact hcur, .snoc h.holds hs, h.start, by simp [g0], g3, hok'⟩
          have hir : unread l.prev.items l.ph.curr (l.ph.i + 1) = innerRest l1 := by
            rw [innerRest, g2.curr, if_neg hc0, g2.prev, g2.i]
          have hrw : u ++ rest = u ++ [b] ++ unread l.prev.items l.ph.curr (l.ph.i + 1) := by rw [hub]; simp
          rcases ih (rest.length - 1 + (l.prev.items.length - l.ph.curr)) (by rw [hub] at hn ⊢; simp at hn ⊢; omega) hinv hir (by rw [g2.curr]; exact hcur)
            (by rw [g2.prev, g2.curr, hub]; simp) with ⟨l2, k1, k2⟩ | ⟨l2, rest', q2, em, k1, k2⟩
          · left
            refine ⟨l2, g1.trans k1, ?_⟩
            rw [hrw]
            exact ⟨k2.inv, k2.prev.trans g2.prev, k2.q.trans g2.q, k2.ierr.trans g2.ierr, k2.oerr.trans g2.oerr, k2.head.trans g2.head, by rw [k2.curr, g2.prev]⟩
          · right
            refine ⟨l2, rest', q2, em, g1.trans k1, ?_⟩
            rw [hrw]
            exact ⟨k2.inv, k2.or, by rw [k2.q, g2.q], k2.bytes, k2.out, k2.ierr.trans g2.ierr, k2.oerr.trans g2.oerr, by rw [← g2.prev]; exact k2.plen,
              k2.head.trans g2.head⟩
        | some out =>
          right
          obtain ⟨g0, g00, l1, g1, g2, g3⟩ := hst
          have hok' : (sc.run q' (unread l.prev.items l.ph.curr (l.ph.i + 1) ++ fut)).isSome := by
            simpa using hok
          obtain ⟨hp1, hp2⟩ := Queue.listFree_ok h.prevOk l.ph.curr
          have hor : unread l.prev.items l.ph.curr (l.ph.i + 1) = outerRest l1 := by
            rw [outerRest, g2.curr, if_pos rfl, g2.prev, hp2, g2.consumed]
            exact (unread_drop_pred _ _ _ hcur).symm
          have hitems : l1.prev.items = l.prev.items.drop (l.ph.curr - 1) := by rw [g2.prev, hp2]
          refine ⟨l1, unread l.prev.items l.ph.curr (l.ph.i + 1), q', out, g1, ?_⟩
          refine ⟨⟨rfl, by rw [g2.q]; exact (Queue.pushAll_ok h.qOk out).1, by rw [g2.prev]; exact hp1, ?_, by rw [g2.curr]; omega, by rw [g2.head]; exact h.head, ?_,
            by simp, .nil _, g0, by simp [g0], g3, hok'⟩, hor, g2.q, g00, ⟨q0, h.beh, ?_, ?_⟩, g2.ierr, g2.oerr, by rw [hitems]; simp, g2.head⟩
          · rw [hitems]; intro d hd; exact h.bytes d (List.mem_of_mem_drop hd)
          · rw [hitems]
            intro k
            have h1 := congrArg List.length k
            have h2 := h.currle
            simp at h1; omega
          · rw [List.append_assoc, (h.holds.run _).1, hub]
            simp only [List.cons_append, Scanner.run, hs, Option.getD_some]
          · rw [List.append_assoc, (h.holds.run _).2, hub]
            simp only [List.cons_append, scanToks, hs]
    · -- the next chunk
      have hub : rest = (l.prev.items.drop l.ph.curr).flatten := by
        rw [hr, innerRest, if_neg hc0]
        exact unread_next hlt
      have h1 : LReach s .fromInner l l (.goto .fromOuter) := .one rfl (by simp only [localStep, fromInner, if_neg hc0, dif_neg hlt])
      by_cases hnext : l.ph.curr < l.prev.items.length
      · have h2 : localStep s .fromOuter l = ({ l with ph := { l.ph with i := 0, curr := l.ph.curr + 1 } }, .goto .fromInner) := by
          simp only [localStep, fromOuter, Queue.hasNext, decide_eq_true hnext, if_true, if_neg hc0]
        have hinv : SInv sc At F { l with ph := { l.ph with i := 0, curr := l.ph.curr + 1 } } q0 q u rest fut :=
          ⟨h.beh, h.qOk, h.prevOk, h.bytes, hnext, h.head, h.zero, fun _ => by simp, h.holds, h.start, h.uq, hS.same _ _ l.ph.q 0 (l.ph.curr + 1) h.at_, h.ok⟩
        have hir : rest = innerRest ({ l with ph := { l.ph with i := 0, curr := l.ph.curr + 1 } } : Loc π) := by
          rw [hub, drop_flatten hnext]; rfl
        rcases ih (rest.length + (l.prev.items.length - (l.ph.curr + 1))) (by omega) hinv hir (by simp) rfl with ⟨l2, k1, k2⟩ | ⟨l2, rest', q2, em, k1, k2⟩
        · left
          exact ⟨l2, h1.trans (.cons rfl h2 k1), ⟨k2.inv, k2.prev, k2.q, k2.ierr, k2.oerr, k2.head, k2.curr⟩⟩
        · right
          exact ⟨l2, rest', q2, em, h1.trans (.cons rfl h2 k1), ⟨k2.inv, k2.or, k2.q, k2.bytes, k2.out, k2.ierr, k2.oerr, k2.plen, k2.head⟩⟩
      · left
        have h2 : localStep s .fromOuter l = (l, .goto .leave) := by
          simp only [localStep, fromOuter, Queue.hasNext, decide_eq_false hnext]; rfl
        have hnil : rest = [] := by rw [hub, List.drop_of_length_le (by omega)]; rfl
        subst hnil
        refine ⟨l, h1.trans (.one rfl h2), ⟨q0, q, by rw [List.append_nil]; exact h⟩, rfl, rfl, rfl, rfl, rfl, ?_⟩
        have := h.currle; omega

theorem s_visit (hS : Scans s sc At) (h : SInv sc At F l q0 q u rest fut) (hr : rest = outerRest l) :
    (∃ l', LReach s .fromOuter l l' (.goto .leave) ∧ SQuiet sc At F l l' (u ++ rest) fut) ∨
    (∃ l' rest' q' em, LReach s .fromOuter l l' .nextBegin ∧ SDecide sc At F l l' (u ++ rest) fut rest' q' em) := by
  by_cases hnext : l.ph.curr < l.prev.items.length
  · have h2 : localStep s .fromOuter l = ({ l with ph := { l.ph with
        i := if l.ph.curr = 0 then l.ph.consumed else 0
        curr := l.ph.curr + 1 } }, .goto .fromInner) := by
      simp only [localStep, fromOuter, Queue.hasNext, decide_eq_true hnext, if_true]
    have hinv : SInv sc At F { l with ph := { l.ph with
        i := if l.ph.curr = 0 then l.ph.consumed else 0
        curr := l.ph.curr + 1 } } q0 q u rest fut :=
      ⟨h.beh, h.qOk, h.prevOk, h.bytes, hnext, h.head, h.zero, fun _ => by simp, h.holds, h.start, h.uq, hS.same _ _ l.ph.q _ (l.ph.curr + 1) h.at_, h.ok⟩
    have hir : rest = innerRest ({ l with ph := { l.ph with
        i := if l.ph.curr = 0 then l.ph.consumed else 0
        curr := l.ph.curr + 1 } } : Loc π) := by
      rw [hr]
      show outerRest l = unread l.prev.items (l.ph.curr + 1) (if l.ph.curr = 0 then l.ph.consumed else 0)
      unfold outerRest
      by_cases hc0 : l.ph.curr = 0
      · simp [hc0]
      · simp only [if_neg hc0]; exact drop_flatten hnext
    rcases s_inner hS _ hinv hir (by simp) rfl with ⟨l2, k1, k2⟩ | ⟨l2, rest', q2, em, k1, k2⟩
    · left
      exact ⟨l2, .cons rfl h2 k1, ⟨k2.inv, k2.prev, k2.q, k2.ierr, k2.oerr, k2.head, k2.curr⟩⟩
    · right
      exact ⟨l2, rest', q2, em, .cons rfl h2 k1, ⟨k2.inv, k2.or, k2.q, k2.bytes, k2.out, k2.ierr, k2.oerr, k2.plen, k2.head⟩⟩
  · left
    have h2 : localStep s .fromOuter l = (l, .goto .leave) := by
      simp only [localStep, fromOuter, Queue.hasNext, decide_eq_false hnext]; rfl
    have hnil : rest = [] := by
      rw [hr]; unfold outerRest
      have := h.currle
      by_cases hc0 : l.ph.curr = 0
      · have hN : l.prev.items = [] := List.length_eq_zero_iff.1 (by omega)
        simp [hc0, unread, hN]
      · rw [if_neg hc0, List.drop_of_length_le (by omega)]; rfl
    subst hnil
    refine ⟨l, .one rfl h2, ⟨q0, q, by rw [List.append_nil]; exact h⟩, rfl, rfl, rfl, rfl, rfl, ?_⟩
    have := h.currle; omega

/-- The invariant in terms of lists of data. -/
def SKInv (sc : Scanner Q) (At : Q → Ph π → Prop) (F : Beh π) (l : Loc π) (rem fut : List Datum) : Prop :=
  ∃ q0 q u, SInv sc At F l q0 q u (outerRest l) fut.flatten ∧ rem.flatten = u ++ outerRest l

def srank (l : Loc π) : Nat := l.prev.items.length - l.ph.curr

theorem outer_end (h1 : l.ph.curr = l.prev.items.length) : outerRest l = [] := by
  unfold outerRest
  by_cases hc0 : l.ph.curr = 0
  · have hN : l.prev.items = [] := List.length_eq_zero_iff.1 (by omega)
    simp [hc0, unread, hN]
  · rw [if_neg hc0, List.drop_of_length_le (by omega)]; rfl

/-- Scanning phases are a kind of phase. -/
def scanKind (hS : Scans s sc At) : Kind s where
  Inv := SKInv sc At
  dec := true
  pads := fun _ => 0
  rank := srank
  qok := fun ⟨_, _, _, h, _⟩ => ⟨h.qOk, h.prevOk, h.currle⟩
  visit := by
    rintro F l rem fut ⟨q0, q, u, h, hr⟩
    rw [hS.isFrom]
    rcases s_visit hS h rfl with ⟨l', k1, k2⟩ | ⟨l', rest', q', em, k1, k2⟩
    · left
      have ho : outerRest l' = [] := outer_end (by rw [k2.curr, k2.prev])
      obtain ⟨q0', q'', hi⟩ := k2.inv
      refine ⟨l', _, k1, .inl rfl, ⟨⟨q0', q'', u ++ outerRest l, by rw [ho]; exact hi, by rw [ho, List.append_nil]; exact hr⟩, k2.q, k2.ierr, k2.oerr, k2.head,
        fun e => absurd e (by simp), fun _ => by rw [k2.prev]; exact Nat.le_refl _, Nat.le_refl _, ?_⟩, ?_, fun e => by simp at e⟩
      · simp only [srank]; rw [k2.curr, k2.prev]; omega
      · intro hlt; simp only [srank]; rw [k2.curr, k2.prev]; omega
    · right
      obtain ⟨q1, hF, ho1, ho2⟩ := k2.out
      have hx : (rem ++ fut).flatten = u ++ outerRest l ++ fut.flatten := by rw [List.flatten_append, hr]
      have hy : ([rest'] ++ fut).flatten = rest' ++ fut.flatten := by simp
      obtain ⟨z, hz⟩ := Option.isSome_iff_exists.1 k2.inv.ok
      refine ⟨l', _, sbeh sc q', [rest'], em, k1, .inr (.inr rfl), ⟨⟨q', q', [], by rw [← k2.or]; exact k2.inv, by rw [← k2.or]; simp⟩,
        k2.q, k2.bytes, k2.head, fun e => absurd e (by simp), fun _ => k2.plen, ?_, ?_, ?_, ?_, ?_, .inl ⟨?_, by omega⟩⟩⟩
      · rw [hF]; exact Nat.le_refl _
      · rw [hF]; simp only [sbeh]; rw [hx, hy, ho1, hz]
        simp only [Option.map_some, Option.getD_some, nonEmpty_append]
      · rw [hF]; simp only [sbeh]; rw [k2.ierr]
      · rw [hF]; simp only [sbeh]; rw [k2.oerr]
      · rw [hF]; rfl
      · rw [hF]; simp only [sbeh]; rw [hx, hy, ho2]; omega
  flush := by
    rintro F l rem fut ⟨q0, q, u, h, hr⟩ hf hc hp
    right
    have hfl : fut.flatten = [] := by rw [← flatten_nonEmpty, hf]; rfl
    have hok := h.ok
    have ho := outer_end hc
    rw [ho, hfl] at hok
    have := hS.pend _ _ h.at_
    rw [hp] at this
    have hq : sc.rest q = false := by
      cases hq : sc.rest q with
      | true => rw [hq] at this; simp at this
      | false => rfl
    simp only [List.nil_append, Scanner.run, hq, Bool.false_eq_true, if_false] at hok
    obtain ⟨out, hout⟩ := Option.isSome_iff_exists.1 hok
    obtain ⟨hb, l', q', k1, k2, k3, k4⟩ := hS.last l q out h.at_ hq hout
    have hrun := h.holds.run []
    rw [List.append_nil] at hrun
    have hx : (rem ++ fut).flatten = u := by rw [List.flatten_append, hr, ho, hfl]; simp
    have hy : ([] ++ fut : List Datum).flatten = [] := by simpa using hfl
    have ho' : outerRest l' = [] := outer_end (by rw [k2.curr, k2.prev, hc])
    rw [hS.isFrom]
    refine ⟨l', _, sbeh sc q', [], out, k1, .inl rfl, ⟨⟨q', q', [], ?_, by rw [ho']; rfl⟩, k2.q, hb, k2.head, fun e => absurd e (by simp),
      fun _ => by rw [k2.prev]; exact Nat.le_refl _, by rw [h.beh]; exact Nat.le_refl _, ?_, by rw [h.beh]; simp only [sbeh]; rw [k2.ierr],
      by rw [h.beh]; simp only [sbeh]; rw [k2.oerr], by rw [h.beh]; rfl, .inl ⟨?_, by omega⟩⟩⟩
    · rw [ho', hfl]
      exact ⟨rfl, by rw [k2.q]; exact (Queue.pushAll_ok h.qOk out).1, by rw [k2.prev]; exact h.prevOk, by rw [k2.prev]; exact h.bytes, by rw [k2.prev, k2.curr]; exact h.currle,
        by rw [k2.head]; exact h.head, by rw [k2.prev, k2.consumed]; exact h.zero, fun e => absurd rfl e, .nil _, k3, by simp [k3], k4, by simp [Scanner.run, k3]⟩
    · rw [h.beh]; simp only [sbeh]; rw [hx, hy, hrun.1]
      simp [Scanner.run, hq, k3, hout, nonEmpty]
    · rw [h.beh]; simp only [sbeh]; rw [hx, hy, hrun.2]
      simp only [scanToks, hq, k3, hout, if_true, Bool.false_eq_true, if_false]; omega
  append := by
    rintro F l l' rem fut em fut' ⟨q0, q, u, h1, hr⟩ hfut hprev hph hhead hb _
    obtain ⟨hq1, hq2⟩ := Queue.pushAll_ok h1.prevOk em
    have hfl : fut.flatten = em.flatten ++ fut'.flatten := by
      rw [← flatten_nonEmpty fut, hfut, List.flatten_append, flatten_nonEmpty, flatten_nonEmpty]
    have hu1 : unread (l.prev.items ++ em) 1 l.ph.consumed = unread l.prev.items 1 l.ph.consumed ++ em.flatten := by
      by_cases hn : l.prev.items = []
      · rw [hn, h1.zero hn]
        simp only [List.nil_append]
        cases em with
        | nil => simp [unread]
        | cons a em => simp [unread]
      · exact unread_append (by omega) (by
          have := List.length_pos_iff.2 hn; omega)
    have hor : outerRest l' = outerRest l ++ em.flatten := by
      unfold outerRest
      rw [hph, hprev, hq2]
      by_cases h0 : l.ph.curr = 0
      · rw [if_pos h0, if_pos h0]
        exact hu1
      · rw [if_neg h0, if_neg h0, List.drop_append_of_le_length h1.currle, List.flatten_append]
    refine ⟨q0, q, u, ⟨h1.beh, by rw [hph]; exact h1.qOk, by rw [hprev]; exact hq1, ?_, ?_, by rw [hhead rfl]; exact h1.head,
      ?_, by rw [hph]; exact h1.pos, h1.holds, h1.start, h1.uq, by rw [hph]; exact h1.at_, ?_⟩, ?_⟩
    · rw [hprev, hq2]
      intro d hd
      rcases List.mem_append.1 hd with hd | hd
      · exact h1.bytes d hd
      · exact hb d hd
    · rw [hph, hprev, hq2]; have := h1.currle; simp; omega
    · intro hn
      rw [hprev, hq2] at hn
      rw [hph]; exact h1.zero (List.append_eq_nil_iff.1 hn).1
    · rw [hor, List.append_assoc, ← hfl]; exact h1.ok
    · rw [List.flatten_append, hr, hor]; simp
  frame := by
    rintro F l l' rem fut ⟨q0, q, u, h, hr⟩ h1 h2 h3 h4
    have ho : outerRest l' = outerRest l := by
      unfold outerRest; rw [h1, h3]
    refine ⟨q0, q, u, ?_, by rw [ho]; exact hr⟩
    rw [ho]
    refine ⟨h.beh, h2, by rw [h1]; exact h.prevOk, by rw [h1]; exact h.bytes, by rw [h1, h3]; exact h.currle,
      by rw [h4 rfl]; exact h.head, by rw [h1, h3]; exact h.zero, by rw [h3]; exact h.pos, h.holds, h.start, h.uq, ?_, h.ok⟩
    rw [h3]; exact hS.same _ _ l'.ph.q l.ph.i l.ph.curr h.at_
  rank_frame := by intro l l' h1 h2; simp only [srank]; rw [h1, h2]
  pads_frame := by intros; rfl
  pads_append := by intros; omega
  idle := by
    rintro F l rem fut ⟨q0, q, u, h, hr⟩ h1 h2 h3
    have hq : sc.rest q = true := by
      have := hS.pend _ _ h.at_
      rw [h2] at this
      cases hq : sc.rest q with
      | true => rfl
      | false => rw [hq] at this; simp at this
    have hu := h.uq.2 hq
    have hfl : fut.flatten = [] := by rw [← flatten_nonEmpty, h3]; rfl
    have ho : outerRest l = [] := outer_end (by have := h.currle; omega)
    have hx : (rem ++ fut).flatten = [] := by rw [List.flatten_append, hr, hu, ho, hfl]; rfl
    rw [h.beh]
    simp only [sbeh, hx, Scanner.run, h.start]
    exact ⟨rfl, trivial, trivial, trivial⟩
  noIn := fun e => absurd e (by simp)

/-- What a scanner puts out is made of bytes. -/
theorem scan_bytes {sc : Scanner Q} (hb : ∀ q b q' o, sc.step q b = some (q', some o) → b < 256 → AllBytes o)
    (hl : ∀ q o, sc.last q = some o → AllBytes o) (bs : List Nat) (hbs : IsBytes bs) (q : Q) :
    AllBytes ((sc.run q bs).getD []) := by
  induction bs generalizing q with
  | nil =>
    simp only [Scanner.run]
    split
    · intro d hd; simp at hd
    · cases h : sc.last q with
      | none => intro d hd; simp at hd
      | some o => exact hl q o h
  | cons b bs ih =>
    simp only [Scanner.run]
    cases hs : sc.step q b with
    | none => intro d hd; simp at hd
    | some r =>
      obtain ⟨q', o⟩ := r
      have ih' := ih (fun c hc => hbs c (by simp [hc])) q'
      simp only
      cases hr : sc.run q' bs with
      | none => intro d hd; simp at hd
      | some x =>
        rw [hr] at ih'
        intro d hd
        simp only [Option.map_some, Option.getD_some, List.mem_append] at hd
        rcases hd with hd | hd
        · cases o with
          | none => simp at hd
          | some o => exact hb q b q' o hs (hbs b (by simp)) d hd
        · exact ih' d hd

/-- A scanning phase decodes. -/
theorem scan_realises (hS : Scans s sc At) (hb : ∀ q b q' o, sc.step q b = some (q', some o) → b < 256 → AllBytes o)
    (hl : ∀ q o, sc.last q = some o → AllBytes o) (hrest : sc.rest q = true)
    {p : Nat → π} (hat : ∀ x : Ph π, x.fMatch = false → x.fPending = false → x.fLoop = false → x.index = 0 → x.st = 0 → x.priv = p → At q x) :
    Realises s (fun r => r = p) (sc.proc q) := by
  refine ⟨scanKind hS, sbeh sc q, rfl, ?_, ?_⟩
  · intro ds hds _
    refine ⟨rfl, rfl, rfl, fun _ _ => trivial, scan_bytes hb hl _ ?_ q⟩
    intro b hm
    obtain ⟨d, hd, hbd⟩ := List.mem_flatten.1 hm
    exact hds d hd b hbd
  clear hl
  intro l fut _ hl hpr hok
  have ho : outerRest l = [] := by
    unfold outerRest; rw [if_pos hl.curr, hl.prev]; simp [unread, Queue.empty]
  refine ⟨q, q, [], ?_, by rw [ho]; rfl⟩
  rw [ho]
  exact ⟨rfl, by rw [hl.q]; rfl, by rw [hl.prev]; rfl, by rw [hl.prev]; simp [Queue.empty], by rw [hl.curr]; omega, hl.head, fun _ => hl.consumed,
    by simp, .nil _, hrest, by simp [hrest], hat _ hl.fMatch hl.fPending hl.fLoop hl.index hl.st hpr, hok⟩

end Verif.Engine
