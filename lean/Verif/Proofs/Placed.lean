import Verif.Proofs.HandlerSingle

/-! One phase of interest among arbitrary others. -/

namespace Verif.Engine
open Verif.Spec

variable {π σ : Type}

/-- Private data of phase `k` after `bsdconv_init`. -/
def initPriv (st : Nat → Static π) (ip : Nat → Nat → π → π) (ins : Ins π) (k : Nat) : Nat → π :=
  ((ins.init st ip).ph k).priv

/-- What a conversion through the chain `L` of processors is: after `bsdconv_init`, any number of calls feeding
chunks and a last one with `flush`, in any mixture of output modes that do not throw output away; the calls return,
the bytes delivered and still pending are those of the chain applied to the input, the error counters grow by the
errors of the chain, and the private data of the codecs are as described. -/
def Converts (st : Nat → Static π) (ip : Nat → Nat → π → π) (ins : Ins π) (L : List (Proc π)) : Prop :=
  ∀ (as : List Arg) (a : Arg), (∀ x ∈ as, x.flush = false) → a.flush = true →
    (∀ x ∈ as ++ [a], x.mode ≠ .null) → (∀ x ∈ as ++ [a], ∀ c ∈ x.input, IsBytes c) →
    ∀ inp : List Datum, (as ++ [a]).filterMap (fun x => x.input) = inp → OkAll L inp →
    ∃ ds ins', Session st (ins.init st ip) (as ++ [a]) ds ins' ∧
      (ds.map (fun d => d.bytes)).flatten ++ ins'.pending.flatten = (runProcs L inp).flatten ∧
      ((∀ x ∈ as ++ [a], x.mode = .hold) → nonEmpty ins'.pending = nonEmpty (runProcs L inp)) ∧
      ins'.ierr = ins.ierr + runIn L inp ∧ ins'.oerr = ins.oerr + runOut L inp ∧
      (∀ k (h : k < L.length), L[k].fin (runProcs (L.take k) inp) (ins'.ph (k + 1)).priv)

/-- Phase `pre.length + 1` of the instance is `s`; the phases before it behave as `pre`, those after it as `post`. -/
structure Placed (st : Nat → Static π) (ip : Nat → Nat → π → π) (ins : Ins π) (pre : List (Proc π)) (s : Static π)
    (post : List (Proc π)) : Prop where
  before : ∀ k (h : k < pre.length), Realises (st (k + 1)) (fun p => p = initPriv st ip ins (k + 1)) pre[k]
  here : st (pre.length + 1) = s
  behind : ∀ k (h : k < post.length),
    Realises (st (pre.length + 1 + k + 1)) (fun p => p = initPriv st ip ins (pre.length + 1 + k + 1)) post[k]
  alt : ∀ k (h : k + 1 < pre.length), pre[k].dec = true → pre[k + 1].dec = false
  altPost : ∀ k (h : k + 1 < post.length), post[k].dec = true → post[k + 1].dec = false
  phasen : ins.phasen = pre.length + 1 + post.length

theorem chain_converts {st : Nat → Static π} {ip : Nat → Nat → π → π} {ins : Ins π} {L : List (Proc π)}
    (h : Chain st ip ins L) (hn : ins.phasen = L.length) : Converts st ip ins L := by
  intro as a h1 h2 h3 h4 inp h5 h6
  obtain ⟨ds, ins', a1, a2, a3, a4, a5, a6, _⟩ := session_procs h hn as a h1 h2 h3 h4 inp h5 h6
  exact ⟨ds, ins', a1, a2, a3, a4, a5, a6⟩

theorem placed_chain {st : Nat → Static π} {ip : Nat → Nat → π → π} {ins : Ins π} {pre post : List (Proc π)}
    {s : Static π} (h : Placed st ip ins pre s post) {P : Proc π}
    (hP : Realises s (fun p => p = initPriv st ip ins (pre.length + 1)) P) (hd : P.dec = false) :
    Chain st ip ins (pre ++ P :: post) where
  ne := by simp
  real := by
    intro k hk
    rcases Nat.lt_trichotomy k pre.length with h1 | h1 | h1
    · rw [List.getElem_append_left h1]
      exact h.before k h1
    · subst h1
      rw [List.getElem_append_right (Nat.le_refl _), h.here]
      simp only [Nat.sub_self, List.getElem_cons_zero]
      exact hP
    · obtain ⟨j, rfl⟩ : ∃ j, k = pre.length + 1 + j := ⟨k - pre.length - 1, by omega⟩
      rw [List.getElem_append_right (by omega)]
      have e : pre.length + 1 + j - pre.length = j + 1 := by omega
      simp only [e, List.getElem_cons_succ]
      exact h.behind j (by simp at hk; omega)
  alt := by
    intro k hk
    rcases Nat.lt_trichotomy (k + 1) pre.length with h1 | h1 | h1
    · rw [List.getElem_append_left (by omega), List.getElem_append_left h1]
      exact h.alt k h1
    · intro _
      rw [List.getElem_append_right (by omega)]
      have e : k + 1 - pre.length = 0 := by omega
      simp only [e, List.getElem_cons_zero, hd]
    · obtain ⟨j, rfl⟩ : ∃ j, k = pre.length + j := ⟨k - pre.length, by omega⟩
      rw [List.getElem_append_right (by omega), List.getElem_append_right (by omega)]
      have e : pre.length + j - pre.length = j := by omega
      have e2 : pre.length + j + 1 - pre.length = j + 1 := by omega
      simp only [e, e2, List.getElem_cons_succ]
      cases j with
      | zero => simp only [List.getElem_cons_zero, hd]; intro h; simp at h
      | succ j =>
        simp only [List.getElem_cons_succ]
        exact h.altPost j (by simp at hk; omega)

/-- The same for a phase that reads bytes, next to phases that do not. -/
theorem placed_chain_dec {st : Nat → Static π} {ip : Nat → Nat → π → π} {ins : Ins π} {pre post : List (Proc π)}
    {s : Static π} (h : Placed st ip ins pre s post) {P : Proc π}
    (hP : Realises s (fun p => p = initPriv st ip ins (pre.length + 1)) P) (hpre : ∀ Q ∈ pre.getLast?, Q.dec = false)
    (hpost : ∀ Q ∈ post.head?, Q.dec = false) :
    Chain st ip ins (pre ++ P :: post) where
  ne := by simp
  real := by
    intro k hk
    rcases Nat.lt_trichotomy k pre.length with h1 | h1 | h1
    · rw [List.getElem_append_left h1]
      exact h.before k h1
    · subst h1
      rw [List.getElem_append_right (Nat.le_refl _), h.here]
      simp only [Nat.sub_self, List.getElem_cons_zero]
      exact hP
    · obtain ⟨j, rfl⟩ : ∃ j, k = pre.length + 1 + j := ⟨k - pre.length - 1, by omega⟩
      rw [List.getElem_append_right (by omega)]
      have e : pre.length + 1 + j - pre.length = j + 1 := by omega
      simp only [e, List.getElem_cons_succ]
      exact h.behind j (by simp at hk; omega)
  alt := by
    intro k hk
    rcases Nat.lt_trichotomy (k + 1) pre.length with h1 | h1 | h1
    · rw [List.getElem_append_left (by omega), List.getElem_append_left h1]
      exact h.alt k h1
    · intro hd
      rw [List.getElem_append_left (by omega)] at hd
      have e : pre.getLast? = some pre[k] := by
        rw [List.getLast?_eq_getElem?, List.getElem?_eq_some_iff]
        exact ⟨by omega, by congr 1; omega⟩
      rw [hpre _ e] at hd
      simp at hd
    · obtain ⟨j, rfl⟩ : ∃ j, k = pre.length + j := ⟨k - pre.length, by omega⟩
      rw [List.getElem_append_right (by omega), List.getElem_append_right (by omega)]
      have e : pre.length + j - pre.length = j := by omega
      have e2 : pre.length + j + 1 - pre.length = j + 1 := by omega
      simp only [e, e2, List.getElem_cons_succ]
      cases j with
      | zero =>
        intro _
        exact hpost _ (by rw [List.head?_eq_getElem?]; exact List.getElem?_eq_getElem (by simp at hk; omega))
      | succ j =>
        simp only [List.getElem_cons_succ]
        exact h.altPost j (by simp at hk; omega)

theorem placed_converts {st : Nat → Static π} {ip : Nat → Nat → π → π} {ins : Ins π} {pre post : List (Proc π)}
    {s : Static π} (h : Placed st ip ins pre s post) {P : Proc π}
    (hP : Realises s (fun p => p = initPriv st ip ins (pre.length + 1)) P) (hd : P.dec = false) :
    Converts st ip ins (pre ++ P :: post) :=
  chain_converts (placed_chain h hP hd) (by simp [h.phasen]; omega)

theorem placed_decodes {st : Nat → Static π} {ip : Nat → Nat → π → π} {ins : Ins π} {pre post : List (Proc π)}
    {s : Static π} (h : Placed st ip ins pre s post) {P : Proc π}
    (hP : Realises s (fun p => p = initPriv st ip ins (pre.length + 1)) P) (hpre : ∀ Q ∈ pre.getLast?, Q.dec = false)
    (hpost : ∀ Q ∈ post.head?, Q.dec = false) :
    Converts st ip ins (pre ++ P :: post) :=
  chain_converts (placed_chain_dec h hP hpre hpost) (by simp [h.phasen]; omega)

/-- A phase with the single codec `c` behaves as described by `P`. -/
theorem single_real {s : Static π} {e : Lens π σ} {c : Handler σ} (hs : Single s e c) {I : σ → Prop}
    (hI : Sound c I) {p : Nat → π} {t : σ} (ht : e.get (p 0) = t) (hit : I t) {P : Proc π} (hd : P.dec = false)
    (hP : ∀ ds, AllBytes ds → P.ok ds → P.inErrors ds = 0 ∧ P.out ds = (c.run (passes s) false t (nonEmpty ds)).out ∧
      (P.outErrors ds = if passes s then 0 else (c.run (passes s) false t (nonEmpty ds)).refused) ∧
      ∀ q, e.get (q 0) = (c.run (passes s) false t (nonEmpty ds)).priv → P.fin ds q) :
    Realises s (fun q => q = p) P := by
  subst ht
  refine (single_realises hs hI hit).as hd.symm (fun _ _ _ => trivial) ?_
  intro ds hb hk
  obtain ⟨a, b, c, d⟩ := hP ds hb hk
  exact ⟨b.symm, a.symm, c.symm, d⟩

/-- A phase with the single codec `h`. -/
theorem single_converts {st : Nat → Static π} {ip : Nat → Nat → π → π} {ins : Ins π} {pre post : List (Proc π)}
    {s : Static π} (h : Placed st ip ins pre s post) {e : Lens π σ} {c : Handler σ} (hs : Single s e c) {I : σ → Prop}
    (hI : Sound c I) {t : σ} (ht : e.get (initPriv st ip ins (pre.length + 1) 0) = t) (hit : I t) {P : Proc π}
    (hd : P.dec = false)
    (hP : ∀ ds, AllBytes ds → P.ok ds → P.inErrors ds = 0 ∧ P.out ds = (c.run (passes s) false t (nonEmpty ds)).out ∧
      (P.outErrors ds = if passes s then 0 else (c.run (passes s) false t (nonEmpty ds)).refused) ∧
      ∀ q, e.get (q 0) = (c.run (passes s) false t (nonEmpty ds)).priv → P.fin ds q) :
    Converts st ip ins (pre ++ P :: post) :=
  placed_converts h (single_real hs hI ht hit hd hP) hd

/-- Phases `pre.length + 1` and `pre.length + 2` are `s1` and `s2`. -/
structure Placed2 (st : Nat → Static π) (ip : Nat → Nat → π → π) (ins : Ins π) (pre : List (Proc π)) (s1 s2 : Static π)
    (post : List (Proc π)) : Prop where
  before : ∀ k (h : k < pre.length), Realises (st (k + 1)) (fun p => p = initPriv st ip ins (k + 1)) pre[k]
  here : st (pre.length + 1) = s1
  next : st (pre.length + 2) = s2
  behind : ∀ k (h : k < post.length),
    Realises (st (pre.length + 2 + k + 1)) (fun p => p = initPriv st ip ins (pre.length + 2 + k + 1)) post[k]
  alt : ∀ k (h : k + 1 < pre.length), pre[k].dec = true → pre[k + 1].dec = false
  altPost : ∀ k (h : k + 1 < post.length), post[k].dec = true → post[k + 1].dec = false
  phasen : ins.phasen = pre.length + 2 + post.length

theorem Placed2.first {st : Nat → Static π} {ip : Nat → Nat → π → π} {ins : Ins π} {pre post : List (Proc π)}
    {s1 s2 : Static π} (h : Placed2 st ip ins pre s1 s2 post) {P : Proc π}
    (hP : Realises s2 (fun q => q = initPriv st ip ins (pre.length + 2)) P) (hd : P.dec = false) :
    Placed st ip ins pre s1 (P :: post) where
  before := h.before
  here := h.here
  behind := by
    intro k hk
    cases k with
    | zero => simp only [Nat.add_zero, List.getElem_cons_zero]; rw [h.next]; exact hP
    | succ k =>
      have e : pre.length + 1 + (k + 1) + 1 = pre.length + 2 + k + 1 := by omega
      rw [e]
      exact h.behind k (by simp at hk; omega)
  alt := h.alt
  altPost := by
    intro k hk
    cases k with
    | zero => simp only [List.getElem_cons_zero, hd]; intro h; simp at h
    | succ k => exact h.altPost k (by simp at hk; omega)
  phasen := by have := h.phasen; simp; omega

/-- The same for a second phase that reads bytes. -/
theorem Placed2.firstDec {st : Nat → Static π} {ip : Nat → Nat → π → π} {ins : Ins π} {pre post : List (Proc π)}
    {s1 s2 : Static π} (h : Placed2 st ip ins pre s1 s2 post) {P : Proc π}
    (hP : Realises s2 (fun q => q = initPriv st ip ins (pre.length + 2)) P) (hpost : ∀ Q ∈ post.head?, Q.dec = false) :
    Placed st ip ins pre s1 (P :: post) where
  before := h.before
  here := h.here
  behind := by
    intro k hk
    cases k with
    | zero => simp only [Nat.add_zero, List.getElem_cons_zero]; rw [h.next]; exact hP
    | succ k =>
      have e : pre.length + 1 + (k + 1) + 1 = pre.length + 2 + k + 1 := by omega
      rw [e]
      exact h.behind k (by simp at hk; omega)
  alt := h.alt
  altPost := by
    intro k hk
    cases k with
    | zero =>
      intro _
      exact hpost _ (by rw [List.head?_eq_getElem?]; exact List.getElem?_eq_getElem (by simp at hk; omega))
    | succ k => exact h.altPost k (by simp at hk; omega)
  phasen := by have := h.phasen; simp; omega

/-- The phase has the single codec `c`. -/
structure Only (s : Static π) (ty : PType) (c : Codec π) : Prop where
  type : s.type = ty
  one : s.codecn = 0
  codec : s.codecs 0 = c

/-- Private data of the first codec of a phase after `bsdconv_init`. -/
theorem initPriv_get {st : Nat → Static π} {ip : Nat → Nat → π → π} {ins : Ins π} {k : Nat} (hk : k ≤ ins.phasen)
    (hk1 : 1 ≤ k) (e : Lens π σ) (f : σ → σ) (h : ∀ x, e.get (ip k 0 x) = f (e.get x)) :
    e.get (initPriv st ip ins k 0) = f (e.get ((ins.ph k).priv 0)) := by
  have h0 : ¬ k = 0 := by omega
  simp only [initPriv, Ins.init, if_pos hk, if_neg h0, Ph.reset, Nat.zero_le, if_true, h]

end Verif.Engine
