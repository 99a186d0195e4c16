import Verif.Proofs.EngineReader

/-! Reader phases realise their processor. -/

namespace Verif.Engine
open Verif.Spec

variable {π : Type}

theorem RQuiet.rank {s : Static π} {rs : Nat → Reader π} {I : Nat → π → Prop} {At : Nat → List Nat → Ph π → Prop} {F : Beh π}
    {l l' : Loc π} {rem fut : List Nat} (h : RQuiet s rs I At F l l' rem fut) :
    hrank s l' + (l.prev.items.length - l.ph.curr) ≤ hrank s l := by
  unfold hrank
  rw [h.prev, h.curr]
  have : (s.codecn - l'.ph.index) * (l.prev.items.length + 1) ≤ (s.codecn - l.ph.index) * (l.prev.items.length + 1) :=
    Nat.mul_le_mul_right _ (by have := h.index; omega)
  omega

/-- A visit from the outer loop test. -/
theorem r_visit {s : Static π} {rs : Nat → Reader π} {I : Nat → π → Prop} {At : Nat → List Nat → Ph π → Prop} (hR : Readers s rs I At)
    (F : Beh π) (l : Loc π) (u rest fut : List Nat) (hi : RInv s rs I At F l u rest fut) (hr : rest = outerRest l) :
    (∃ l', LReach s .fromOuter l l' (.goto .leave) ∧ RQuiet s rs I At F l l' (u ++ rest) fut) ∨
    (∃ l' ctl F' rest' em, LReach s .fromOuter l l' ctl ∧ FromCtl ctl ∧ RDecide s rs I At F l l' (u ++ rest) fut F' rest' em) := by
  by_cases hnext : l.ph.curr < l.prev.items.length
  · have hstep2 : localStep s .fromOuter l = ({ l with ph := { l.ph with
        i := if l.ph.curr = 0 then l.ph.consumed else 0
        curr := l.ph.curr + 1 } }, .goto .fromInner) := by
      simp only [localStep, fromOuter, Queue.hasNext, decide_eq_true hnext, if_true]
    generalize hl2 : ({ l with ph := { l.ph with
        i := if l.ph.curr = 0 then l.ph.consumed else 0
        curr := l.ph.curr + 1 } } : Loc π) = l2 at hstep2
    have hinv : RInv s rs I At F l2 u rest fut := by
      subst hl2
      exact ⟨⟨hi.qOk, hi.prevOk, hi.bytes, hnext, hi.idx, hi.head, hi.fm, hi.inv, hi.pos, hi.zero, hi.safe⟩,
        (hR.member _ hi.idx).same _ _ _ hi.at_ rfl rfl rfl rfl, hi.pend, fun _ => by simp, hi.beh⟩
    have f1 : l2.prev = l.prev := by subst hl2; rfl
    have f9 : l2.ph.curr = l.ph.curr + 1 := by subst hl2; rfl
    have f6 : l2.ph.index = l.ph.index := by subst hl2; rfl
    have hir : rest = innerRest l2 := by
      rw [hr]
      unfold innerRest outerRest
      have f9' : ¬ l2.ph.curr = 0 := by omega
      rw [if_neg f9']
      by_cases hc0 : l.ph.curr = 0
      · subst hl2; simp [hc0]
      · rw [if_neg hc0, drop_flatten hnext]
        subst hl2; simp [hc0]
    rcases r_inner hR F l2 u rest fut hinv hir with ⟨l3, k1, k2⟩ | ⟨l3, ctl, F', rest', em, k1, k2, k3⟩
    · left
      refine ⟨l3, .cons rfl hstep2 k1, ?_⟩
      refine k2.of_same f1 ?_ ?_ ?_ ?_ (by rw [f6]; exact Nat.le_refl _) <;> subst hl2 <;> rfl
    · right
      refine ⟨l3, ctl, F', rest', em, .cons rfl hstep2 k1, k2, ?_⟩
      refine k3.of_same f1 ?_ ?_ ?_ ?_ <;> subst hl2 <;> rfl
  · left
    have hstep2 : localStep s .fromOuter l = (l, .goto .leave) := by
      simp only [localStep, fromOuter, Queue.hasNext, decide_eq_false hnext]; rfl
    have hrnil : rest = [] := by
      rw [hr]; unfold outerRest
      have := hi.currle
      by_cases hc0 : l.ph.curr = 0
      · have hN : l.prev.items = [] := List.length_eq_zero_iff.1 (by omega)
        simp [hc0, unread, hN]
      · rw [if_neg hc0, List.drop_of_length_le (by omega)]; rfl
    subst hrnil
    rw [List.append_nil]
    refine ⟨l, .one rfl hstep2, hi, rfl, rfl, rfl, rfl, rfl, Nat.le_refl _, ?_⟩
    have := hi.currle; omega

/-- Flushing. -/
theorem r_flush {s : Static π} {rs : Nat → Reader π} {I : Nat → π → Prop} {At : Nat → List Nat → Ph π → Prop} (hR : Readers s rs I At)
    (F : Beh π) (l : Loc π) (u : List Nat) (hi : RInv s rs I At F l u [] []) (hp : l.ph.fPending = true) :
    (∃ l', LReach s .fromDead l l' (.goto .leave) ∧ RQuiet s rs I At F l l' u [] ∧ hrank s l' < hrank s l) ∨
    (∃ l' ctl F' rest' em, LReach s .fromDead l l' ctl ∧ FromCtl ctl ∧ RDecide s rs I At F l l' u [] F' rest' em) := by
  have hu : u ≠ [] := hi.pend.1 hp
  obtain ⟨p0, hF, hres, _⟩ := hi.beh
  have hres' : resume rs s.codecn 0 p0 [] (u ++ [] ++ []) =
      retry rs (s.codecn - l.ph.index) l.ph.index l.ph.priv (u ++ [] ++ []) := by
    rw [hres, resume_eq]
    have e : setPriv l.ph.priv l.ph.index (l.ph.priv l.ph.index) = l.ph.priv := by
      funext k; simp only [setPriv]; split
      · rename_i h; rw [h]
      · rfl
    simp only [List.append_nil, Reader.read, e]
  rcases r_dead hR hi.toRCore (by simpa using hu) (hi.currpos hu) ⟨p0, hF, hres'⟩ with
      ⟨l2, F', rest', em, k1, k2⟩ | ⟨l2, k1, k2, k3, k4, k5, k6, k7, k8, k9, k10, k11⟩
  · right
    rw [List.append_nil] at k2
    refine ⟨l2, .goto .fromOuter, F', rest', em, k1.trans (.one rfl ?_), .inr (.inl rfl), k2⟩
    have := k2.inv.head
    simp [localStep, fromInner, k2.curr, this]
  · rw [List.append_nil] at k2 k11
    rcases r_inner hR F l2 [] u [] k2 k11 with ⟨l3, m1, m2⟩ | ⟨l3, ctl, F', rest', em, m1, m2, m3⟩
    · left
      rw [List.nil_append] at m2
      refine ⟨l3, k1.trans m1, m2.of_same k6 k7 k8 k9 k10 (by rw [k4]; omega), ?_⟩
      have hrk := m2.rank
      have hr2 : hrank s l2 < hrank s l + (l2.prev.items.length - 0) := by
        unfold hrank
        rw [k6, k4, k3]
        have := rank_index (k := l.prev.items.length - l.ph.curr) k5 (Nat.zero_le l.prev.items.length)
        omega
      rw [k3] at hrk
      omega
    · right
      rw [List.nil_append] at m3
      exact ⟨l3, ctl, F', rest', em, k1.trans m1, m2, m3.of_same k6 k7 k8 k9 k10⟩

/-- The invariant in terms of lists of data. -/
def RKInv (s : Static π) (rs : Nat → Reader π) (I : Nat → π → Prop) (At : Nat → List Nat → Ph π → Prop) (F : Beh π) (l : Loc π)
    (rem fut : List Datum) : Prop :=
  ∃ u, RInv s rs I At F l u (outerRest l) fut.flatten ∧ rem.flatten = u ++ outerRest l

theorem rbeh_flat {F : Beh π} {rs : Nat → Reader π} {n : Nat} {p : Nat → π} (hF : F = rbeh rs n p) {ds : List Datum} {x : List Nat}
    (h : ds.flatten = x) : F.out ds = F.out [x] ∧ F.inE ds = F.inE [x] ∧ F.outE ds = F.outE [x] ∧ F.toks ds = F.toks [x] ∧
      F.fin ds = F.fin [x] := by
  subst hF h
  simp [rbeh]

theorem quiet_of {s : Static π} {rs : Nat → Reader π} {I : Nat → π → Prop} {At : Nat → List Nat → Ph π → Prop} {F : Beh π}
    {l l' : Loc π} {rem fut : List Datum} {r : List Nat} (hr : rem.flatten = r) (h : RQuiet s rs I At F l l' r fut.flatten) :
    Quiet (RKInv s rs I At) true (fun _ => 0) (hrank s) F l l' rem fut := by
  have ho : outerRest l' = [] := by
    have h1 := h.curr
    have h2 := h.prev
    unfold outerRest
    by_cases hc0 : l'.ph.curr = 0
    · have hN : l'.prev.items = [] := List.length_eq_zero_iff.1 (by rw [h2]; omega)
      simp [hc0, unread, hN]
    · rw [if_neg hc0, List.drop_of_length_le (by rw [h2]; omega)]; rfl
  refine ⟨⟨r, by rw [ho]; exact h.inv, by rw [ho, hr]; simp⟩, h.q, h.ierr, h.oerr, h.head, fun e => absurd e (by simp),
    fun _ => by rw [h.prev]; exact Nat.le_refl _, Nat.le_refl _, ?_⟩
  have := h.rank; omega

theorem decide_of {s : Static π} {rs : Nat → Reader π} {I : Nat → π → Prop} {At : Nat → List Nat → Ph π → Prop} {F F' : Beh π}
    {l l' : Loc π} {rem fut : List Datum} {r rest' : List Nat} {em : List Datum} (hr : rem.flatten = r) {n : Nat} {p : Nat → π}
    (hF : F = rbeh rs n p) (h : RDecide s rs I At F l l' r fut.flatten F' rest' em) :
    Decide (RKInv s rs I At) true (fun _ => 0) F l l' rem fut F' [rest'] em := by
  obtain ⟨a1, a2, a3, a4, a5⟩ := rbeh_flat hF (ds := rem ++ fut) (x := r ++ fut.flatten) (by rw [List.flatten_append, hr])
  obtain ⟨p', hF', _⟩ := h.inv.beh
  obtain ⟨b1, b2, b3, b4, b5⟩ := rbeh_flat hF' (ds := [rest'] ++ fut) (x := rest' ++ fut.flatten) (by simp)
  refine ⟨⟨[], by rw [← h.or]; exact h.inv, by rw [← h.or]; simp⟩, h.q, h.bytes, h.head, fun e => absurd e (by simp), fun _ => h.plen, ?_, ?_, ?_, ?_,
    ?_, .inl ⟨?_, by omega⟩⟩
  · rw [a2, b2]; exact h.ile
  · rw [a1, b1, h.out, nonEmpty_append]
  · rw [a2, b2]; exact h.ierr
  · rw [a3, b3, h.oE.1, h.oE.2, h.oerr]
  · rw [a5, b5]; exact h.fin
  · rw [a4, b4]; exact h.toks

/-- Reader phases are a kind of phase. -/
def readerKind {s : Static π} {rs : Nat → Reader π} {I : Nat → π → Prop} {At : Nat → List Nat → Ph π → Prop} (hR : Readers s rs I At) :
    Kind s where
  Inv := RKInv s rs I At
  dec := true
  pads := fun _ => 0
  rank := hrank s
  qok := fun ⟨_, h, _⟩ => ⟨h.qOk, h.prevOk, h.currle⟩
  visit := by
    rintro F l rem fut ⟨u, h, hr⟩
    obtain ⟨p0, hF, _⟩ := h.beh
    rw [hR.isFrom]
    rcases r_visit hR F l u _ _ h rfl with ⟨l', k1, k2⟩ | ⟨l', ctl, F', rest', em, k1, k2, k3⟩
    · left
      refine ⟨l', _, k1, .inl rfl, quiet_of hr k2, fun hlt => ?_, fun e => by simp at e⟩
      have := k2.rank; omega
    · right
      exact ⟨l', ctl, F', [rest'], em, k1, k2, decide_of hr hF k3⟩
  flush := by
    rintro F l rem fut ⟨u, h, hr⟩ hf hc hp
    obtain ⟨p0, hF, _⟩ := h.beh
    have hfl : fut.flatten = [] := by rw [← flatten_nonEmpty, hf]; rfl
    have ho : outerRest l = [] := by
      unfold outerRest
      by_cases hc0 : l.ph.curr = 0
      · have hN : l.prev.items = [] := List.length_eq_zero_iff.1 (by omega)
        simp [hc0, unread, hN]
      · rw [if_neg hc0, List.drop_of_length_le (by omega)]; rfl
    rw [ho, hfl] at h
    rw [ho, List.append_nil] at hr
    rw [hR.isFrom]
    rcases r_flush hR F l u h hp with ⟨l', k1, k2, k3⟩ | ⟨l', ctl, F', rest', em, k1, k2, k3⟩
    · left
      rw [← hfl] at k2
      exact ⟨l', _, k1, .inl rfl, quiet_of hr k2, k3⟩
    · right
      rw [← hfl] at k3
      exact ⟨l', ctl, F', [rest'], em, k1, k2, decide_of hr hF k3⟩
  append := by
    rintro F l l' rem fut em fut' ⟨u, h1, hr⟩ hfut hprev hph hhead hb hsafe
    obtain ⟨hq1, hq2⟩ := Queue.pushAll_ok h1.prevOk em
    have hfl : fut.flatten = em.flatten ++ fut'.flatten := by
      rw [← flatten_nonEmpty fut, hfut, List.flatten_append, flatten_nonEmpty, flatten_nonEmpty]
    have hu1 : unread (l.prev.items ++ em) 1 l.ph.consumed = unread l.prev.items 1 l.ph.consumed ++ em.flatten := by
      by_cases hn : l.prev.items = []
      · rw [hn, h1.zero hn]
        simp only [List.nil_append]
        cases em with
        | nil => simp [unread]
        | cons a em => simp [unread]
      · exact unread_append (by omega) (by
          have := List.length_pos_iff.2 hn; omega)
    have hor : outerRest l' = outerRest l ++ em.flatten := by
      unfold outerRest
      rw [hph, hprev, hq2]
      by_cases h0 : l.ph.curr = 0
      · rw [if_pos h0, if_pos h0]
        exact hu1
      · rw [if_neg h0, if_neg h0, List.drop_append_of_le_length h1.currle, List.flatten_append]
    obtain ⟨p0, hF, hres, hz⟩ := h1.beh
    refine ⟨u, ⟨⟨by rw [hph]; exact h1.qOk, by rw [hprev]; exact hq1, ?_, ?_, by rw [hph]; exact h1.idx, by rw [hhead rfl]; exact h1.head,
      by rw [hph]; exact h1.fm, by rw [hph]; exact h1.inv, ?_, ?_, ?_⟩, by rw [hph]; exact h1.at_, by rw [hph]; exact h1.pend, by rw [hph]; exact h1.currpos,
      p0, hF, ?_, ?_⟩, ?_⟩
    · rw [hprev, hq2]
      intro d hd
      rcases List.mem_append.1 hd with hd | hd
      · exact h1.bytes d hd
      · exact hb d hd
    · rw [hph, hprev, hq2]; have := h1.currle; simp; omega
    · rw [hprev, hq2, hph, hu1, h1.pos, hor]; simp
    · intro hn
      rw [hprev, hq2] at hn
      rw [hph]; exact h1.zero (List.append_eq_nil_iff.1 hn).1
    · rw [hprev, hq2]
      rcases hsafe rfl with hs | hs
      · left
        rw [hor]
        rw [(rbeh_flat hF (ds := rem ++ fut) (x := u ++ (outerRest l ++ em.flatten) ++ fut'.flatten) (by
          rw [List.flatten_append, hr, hfl]; simp)).2.1] at hs
        exact hs
      · right; exact hs
    · rw [hor, hph]
      rw [hfl] at hres
      simpa using hres
    · rw [hor, hph]
      intro hn
      apply hz
      simp only [List.append_eq_nil_iff] at hn ⊢
      exact ⟨hn.1, hn.2.1⟩
    · rw [List.flatten_append, hr, hor]; simp
  frame := by
    rintro F l l' rem fut ⟨u, h, hr⟩ h1 h2 h3 h4
    have ho : outerRest l' = outerRest l := by
      unfold outerRest; rw [h1, h3]
    have hp : l'.ph.priv = l.ph.priv := by rw [h3]
    have hi : l'.ph.index = l.ph.index := by rw [h3]
    refine ⟨u, ?_, by rw [ho]; exact hr⟩
    rw [ho]
    refine ⟨⟨h2, by rw [h1]; exact h.prevOk, by rw [h1]; exact h.bytes, by rw [h1, h3]; exact h.currle, by rw [h3]; exact h.idx,
      by rw [h4 rfl]; exact h.head, by rw [h3]; exact h.fm, by rw [h3]; exact h.inv, by rw [h1, h3]; exact h.pos,
      by rw [h1, h3]; exact h.zero, by rw [h1]; exact h.safe⟩, ?_, by rw [h3]; exact h.pend, by rw [h3]; exact h.currpos, ?_⟩
    · rw [hi]
      exact (hR.member _ h.idx).same _ _ _ h.at_ (by rw [h3]) (by rw [h3]) (by rw [h3]) (by rw [h3])
    · rw [hp, hi]; exact h.beh
  rank_frame := by intro l l' h1 h2; simp only [hrank]; rw [h1, h2]
  pads_frame := by intros; rfl
  pads_append := by intros; omega
  idle := by
    rintro F l rem fut ⟨u, h, hr⟩ h1 h2 h3
    have hu : u = [] := by
      have := h.pend
      rw [h2] at this
      cases u with
      | nil => rfl
      | cons a t => exact absurd (this.2 (by simp)) (by simp)
    have hfl : fut.flatten = [] := by rw [← flatten_nonEmpty, h3]; rfl
    have ho : outerRest l = [] := by
      unfold outerRest
      have := h.currle
      by_cases hc0 : l.ph.curr = 0
      · have hN : l.prev.items = [] := List.length_eq_zero_iff.1 (by omega)
        simp [hc0, unread, hN]
      · rw [if_neg hc0, List.drop_of_length_le (by omega)]; rfl
    obtain ⟨p0, hF, _, hz⟩ := h.beh
    have hp0 := hz (by rw [hu, ho]; rfl)
    have hx : (rem ++ fut).flatten = [] := by rw [List.flatten_append, hr, hu, ho, hfl]; rfl
    subst hF
    simp only [rbeh, hx, decode_nil]
    exact ⟨rfl, trivial, trivial, hp0.symm⟩
  noIn := fun e => absurd e (by simp)

theorem read_rest {r : Reader π} {t : π} {u s rest : List Nat} {t' : π} {out : List Datum}
    (h : r.read t u s = .done rest t' out) : ∃ pre, s = pre ++ rest := by
  induction s generalizing t u with
  | nil => simp [Reader.read] at h
  | cons b s ih =>
    rw [Reader.read] at h
    cases hs : r.step t u b with
    | more t1 => rw [hs] at h; obtain ⟨pre, e⟩ := ih h; exact ⟨b :: pre, by rw [e]; rfl⟩
    | done t1 o => rw [hs] at h; simp only [Read.done.injEq] at h; exact ⟨[b], by rw [h.1]; rfl⟩
    | dead t1 => rw [hs] at h; simp at h

theorem resume_sound {s : Static π} {rs : Nat → Reader π} {I : Nat → π → Prop} {At : Nat → List Nat → Ph π → Prop} (hR : Readers s rs I At)
    (k j : Nat) (hkj : j + k ≤ s.codecn) (p : Nat → π) (hp : ∀ j, I j (p j)) (u rest : List Nat) (hb : IsBytes (u ++ rest)) :
    (∀ i, I i ((resume rs k j p u rest).1 i)) ∧ ∀ x o, (resume rs k j p u rest).2 = some (x, o) → AllBytes o ∧ IsBytes x := by
  induction k generalizing j p u rest with
  | zero =>
    have h := (hR.member j (by omega)).read (u := u) (hp j) (bs := rest) (fun b hm => hb b (by simp [hm]))
    rw [resume_eq]
    cases hr : (rs j).read (p j) u rest with
    | ended t => rw [hr] at h; simp only [retry]; exact ⟨setPriv_inv hp h, by simp⟩
    | dead t => rw [hr] at h; simp only [retry]; exact ⟨setPriv_inv hp h, by simp⟩
    | done x t o =>
      rw [hr] at h
      obtain ⟨pre, e⟩ := read_rest hr
      refine ⟨setPriv_inv hp h.1, fun x' o' e' => ?_⟩
      simp only [Option.some.injEq, Prod.mk.injEq] at e'
      obtain ⟨rfl, rfl⟩ := e'
      exact ⟨h.2, fun b hm => hb b (by rw [e]; simp [hm])⟩
  | succ k ih =>
    have h := (hR.member j (by omega)).read (u := u) (hp j) (bs := rest) (fun b hm => hb b (by simp [hm]))
    rw [resume_eq]
    cases hr : (rs j).read (p j) u rest with
    | ended t => rw [hr] at h; simp only [retry]; exact ih (j + 1) (by omega) _ (setPriv_inv hp h) _ _ (by simpa using hb)
    | dead t => rw [hr] at h; simp only [retry]; exact ih (j + 1) (by omega) _ (setPriv_inv hp h) _ _ (by simpa using hb)
    | done x t o =>
      rw [hr] at h
      obtain ⟨pre, e⟩ := read_rest hr
      refine ⟨setPriv_inv hp h.1, fun x' o' e' => ?_⟩
      simp only [Option.some.injEq, Prod.mk.injEq] at e'
      obtain ⟨rfl, rfl⟩ := e'
      exact ⟨h.2, fun b hm => hb b (by rw [e]; simp [hm])⟩

theorem decode_bytes {s : Static π} {rs : Nat → Reader π} {I : Nat → π → Prop} {At : Nat → List Nat → Ph π → Prop} (hR : Readers s rs I At)
    (p : Nat → π) (hp : ∀ j, I j (p j)) (bs : List Nat) (hb : IsBytes bs) : AllBytes (decode rs s.codecn p bs).out := by
  generalize hn : bs.length = n
  induction n using Nat.strongRecOn generalizing p bs with
  | ind n ih =>
    cases bs with
    | nil => rw [decode_nil]; intro d hd; simp at hd
    | cons b bs =>
      obtain ⟨h1, h2⟩ := resume_sound hR s.codecn 0 (by omega) p hp [] (b :: bs) hb
      cases hr : resume rs s.codecn 0 p [] (b :: bs) with
      | mk p' r =>
        rw [hr] at h1 h2
        cases r with
        | none =>
          rw [(decode_none hr).1]
          exact ih bs.length (by simp at hn; omega) p' h1 bs (fun c hc => hb c (by simp [hc])) rfl
        | some r =>
          obtain ⟨rest, out⟩ := r
          obtain ⟨g1, g2⟩ := h2 _ _ rfl
          rw [(decode_some (by simp) hr).1]
          have := resume_lt _ _ _ _ _ _ hr
          intro d hd
          simp only [List.mem_append] at hd
          rcases hd with hd | hd
          · exact g1 d hd
          · exact ih rest.length (by simp at hn this; omega) p' h1 rest g2 rfl d hd

/-- A phase of readers realises its processor. -/
theorem reader_realises {s : Static π} {rs : Nat → Reader π} {I : Nat → π → Prop} {At : Nat → List Nat → Ph π → Prop} (hR : Readers s rs I At)
    {p : Nat → π} (hp : ∀ j, I j (p j)) : Realises s (fun q => q = p) (decoderProc rs s.codecn p) := by
  refine ⟨readerKind hR, rbeh rs s.codecn p, rfl, ?_, ?_⟩
  · intro ds hb _
    refine ⟨rfl, rfl, rfl, fun _ h => h, decode_bytes hR p hp _ ?_⟩
    intro b hm
    obtain ⟨d, hd, hbd⟩ := List.mem_flatten.1 hm
    exact hb d hd b hbd
  intro l fut _ hl hpr _
  have ho : outerRest l = [] := by
    unfold outerRest; rw [if_pos hl.curr, hl.prev]; simp [unread, Queue.empty]
  refine ⟨[], ?_, by rw [ho]; rfl⟩
  rw [ho]
  refine ⟨⟨by rw [hl.q]; rfl, by rw [hl.prev]; rfl, by rw [hl.prev]; simp [Queue.empty], by rw [hl.curr]; omega,
    by rw [hl.index]; omega, hl.head, hl.fMatch, by rw [hpr]; exact hp, ?_, fun _ => hl.consumed, .inr (by rw [hl.prev]; simp [Queue.empty])⟩,
    ?_, by rw [hl.fPending]; simp, by simp, p, rfl, ?_, fun _ => hpr.symm⟩
  · rw [hl.prev]; simp [unread, Queue.empty]
  · exact (hR.member _ (by rw [hl.index]; omega)).start _ rfl hl.st hl.fLoop
  · rw [hl.index, hpr]; simp

end Verif.Engine
