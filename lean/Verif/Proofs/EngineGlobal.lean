import Verif.Proofs.EngineKind

/-! Global invariant and its preservation. -/

namespace Verif.Engine
open Verif.Spec

variable {π : Type}

/-- The phases `1..n` of an engine: at least one, and no decoding phase directly after a decoding phase. -/
structure Built (st : Nat → Static π) (K : ∀ k, Kind (st k)) (n : Nat) : Prop where
  pos : 1 ≤ n
  alt : ∀ k, 1 ≤ k → k < n → (K k).dec = true → (K (k + 1)).dec = false

/-- `E`: what will have been delivered in the end, `EI`, `EO`: the final error counters, `EF`: what will hold
of the private data. -/
structure GInv (st : Nat → Static π) (K : ∀ k, Kind (st k)) (n : Nat) (E : List Datum) (EI EO : Nat)
    (EF : Nat → (Nat → π) → Prop)
    (ins : Ins π) (F : Nat → Beh π) (rem fut : Nat → List Datum) : Prop where
  num : ins.phasen = n
  c0 : (ins.ph 0).consumed = 0
  cons : ∀ k, 1 ≤ k → k ≤ n → (K k).dec = false → (ins.ph k).consumed = 0
  inv : ∀ k, 1 ≤ k → k ≤ n → (K k).Inv (F k) (ins.locAt k) (rem k) (fut k)
  chain : ∀ k, 1 ≤ k → k < n → nonEmpty (fut (k + 1)) = nonEmpty ((F k).out (rem k ++ fut k))
  out : nonEmpty (ins.ph n).q.items ++ nonEmpty ((F n).out (rem n ++ fut n)) = E
  ierr : ins.ierr + sumTo (fun k => (F k).inE (rem k ++ fut k)) n = EI
  oerr : ins.oerr + sumTo (fun k => (F k).outE (rem k ++ fut k)) n = EO
  fin : ∀ k, 1 ≤ k → k ≤ n → (F k).fin (rem k ++ fut k) = EF k
  clean : ∀ k, 2 ≤ k → k ≤ n → (F k).inE (rem k ++ fut k) = 0
  first : (F 1).inE (rem 1 ++ fut 1) = 0 ∨ (ins.ph 0).q.items.length + (fut 1).length ≤ 1

/-- Work left, counted in tokens and empty data. -/
def workD (st : Nat → Static π) (K : ∀ k, Kind (st k)) (n : Nat) (ins : Ins π) (F : Nat → Beh π)
    (rem fut : Nat → List Datum) : Nat :=
  sumTo (fun k => (n + 2) * (F k).toks (rem k ++ fut k) + (n + 1 - k) * (K k).pads (ins.locAt k)) n

/-- Reading left. -/
def workV (st : Nat → Static π) (K : ∀ k, Kind (st k)) (n : Nat) (ins : Ins π) : Nat :=
  sumTo (fun k => (K k).rank (ins.locAt k)) n

section
variable (ins : Ins π) (l' : Loc π)

theorem locAt_put_self {k : Nat} (h1 : 1 ≤ k) (hp : ins.pidx = k) : (ins.putLoc l').locAt k = l' := by
  have := loc_putLoc ins l' (by omega)
  rw [loc_eq] at this
  rw [← hp]; exact this

theorem put_ph_self {k : Nat} (hp : ins.pidx = k) : (ins.putLoc l').ph k = l'.ph := by
  simp [Ins.putLoc, hp]

theorem put_ph_pred {k j : Nat} (hp : ins.pidx = k) (hj : j + 1 = k) :
    (ins.putLoc l').ph j = { ins.ph j with q := l'.prev, consumed := l'.prevHeadLen } := by
  have : ¬ j = ins.pidx := by omega
  have h2 : j + 1 = ins.pidx := by omega
  simp only [Ins.putLoc, if_neg this, if_pos h2]

theorem put_ph_other {k j : Nat} (hp : ins.pidx = k) (h1 : j ≠ k) (h2 : j + 1 ≠ k) :
    (ins.putLoc l').ph j = ins.ph j := by
  have h3 : ¬ j = ins.pidx := by omega
  have h4 : ¬ j + 1 = ins.pidx := by omega
  simp only [Ins.putLoc, if_neg h3, if_neg h4]

/-- A phase other than the visited one and its successor sees the same input; its own queue may have
been shortened. -/
theorem locAt_put_other {k j : Nat} (hk : 1 ≤ k) (hp : ins.pidx = k) (hj : 1 ≤ j) (h1 : j ≠ k) (h2 : j ≠ k + 1)
    (hh : l'.prevHeadLen = (ins.locAt k).prevHeadLen) :
    ((ins.putLoc l').locAt j).prev = (ins.locAt j).prev ∧
    ((ins.putLoc l').locAt j).prevHeadLen = (ins.locAt j).prevHeadLen ∧
    ((ins.putLoc l').locAt j).ph = { (ins.locAt j).ph with q := ((ins.putLoc l').locAt j).ph.q } := by
  simp only [Ins.locAt]
  by_cases hj1 : j + 1 = k
  · have e1 := put_ph_other ins l' (k := k) (j := j - 1) hp (by omega) (by omega)
    have e2 := put_ph_pred ins l' (k := k) (j := j) hp hj1
    have e3 : l'.prevHeadLen = (ins.ph j).consumed := by
      rw [hh]; simp only [Ins.locAt]; congr 2; omega
    refine ⟨by rw [e1], by rw [e1], ?_⟩
    rw [e2, e3]
  · have e2 := put_ph_other ins l' (k := k) (j := j) hp h1 hj1
    have e1 := put_ph_other ins l' (k := k) (j := j - 1) hp (by omega) (by omega)
    rw [e1, e2]
    exact ⟨rfl, rfl, rfl⟩

theorem locAt_put_succ {k : Nat} (hk : 1 ≤ k) (hp : ins.pidx = k) :
    ((ins.putLoc l').locAt (k + 1)).prev = l'.ph.q ∧
    ((ins.putLoc l').locAt (k + 1)).prevHeadLen = l'.ph.consumed ∧
    ((ins.putLoc l').locAt (k + 1)).ph = (ins.locAt (k + 1)).ph := by
  simp only [Ins.locAt, Nat.add_sub_cancel]
  rw [put_ph_self ins l' hp, put_ph_other ins l' (k := k) (j := k + 1) hp (by omega) (by omega)]
  exact ⟨rfl, rfl, rfl⟩
end

variable {st : Nat → Static π} {K : ∀ k, Kind (st k)} {n : Nat} {E : List Datum} {EI EO : Nat}
  {EF : Nat → (Nat → π) → Prop}
  {ins : Ins π} {F : Nat → Beh π} {rem fut : Nat → List Datum} {k : Nat} {l' : Loc π}

theorem prevOk_put (hb : Built st K n) (hg : GInv st K n E EI EO EF ins F rem fut) (hk : 1 ≤ k) (hkn : k ≤ n)
    (hp : ins.pidx = k) {F' : Beh π} {rem' : List Datum} (hinv : (K k).Inv F' l' rem' (fut k))
    {j : Nat} (hj : 1 ≤ j) (hjn : j ≤ n) : ((ins.putLoc l').locAt j).ph.q.Ok := by
  obtain ⟨h1, h2, _⟩ := (K k).qok hinv
  simp only [Ins.locAt]
  by_cases e1 : j = k
  · rw [e1, put_ph_self ins l' hp]; exact h1
  · by_cases e2 : j + 1 = k
    · rw [put_ph_pred ins l' hp e2]; exact h2
    · rw [put_ph_other ins l' hp e1 e2]
      exact ((K j).qok (hg.inv j hj hjn)).1

theorem ginv_quiet (hb : Built st K n) (hg : GInv st K n E EI EO EF ins F rem fut) (hk : 1 ≤ k) (hkn : k ≤ n)
    (hp : ins.pidx = k) (hq : Quiet (K k).Inv (K k).dec (K k).pads (K k).rank (F k) (ins.locAt k) l' (rem k) (fut k)) :
    GInv st K n E EI EO EF (ins.putLoc l') F rem fut ∧
    workD st K n (ins.putLoc l') F rem fut ≤ workD st K n ins F rem fut ∧
    workV st K n (ins.putLoc l') + (K k).rank (ins.locAt k) = workV st K n ins + (K k).rank l' := by
  have hself := locAt_put_self ins l' hk hp
  have hsucc := locAt_put_succ ins l' hk hp
  have hqeq : l'.ph.q = (ins.ph k).q := hq.q
  -- every phase other than k
  have hoth : ∀ j, 1 ≤ j → j ≤ n → j ≠ k →
      ((ins.putLoc l').locAt j).prev = (ins.locAt j).prev ∧
      ((ins.putLoc l').locAt j).ph = { (ins.locAt j).ph with q := ((ins.putLoc l').locAt j).ph.q } ∧
      ((K j).dec = true → ((ins.putLoc l').locAt j).prevHeadLen = (ins.locAt j).prevHeadLen) := by
    intro j hj hjn hjk
    by_cases hjs : j = k + 1
    · subst hjs
      refine ⟨by rw [hsucc.1, hqeq]; rfl, by rw [hsucc.2.2], ?_⟩
      intro hd
      have hnk : (K k).dec = false := by
        cases hkd : (K k).dec with
        | false => rfl
        | true => rw [hb.alt k hk (by omega) hkd] at hd; simp at hd
      rw [hsucc.2.1, hq.consumed hnk]; rfl
    · obtain ⟨a, b, c⟩ := locAt_put_other ins l' hk hp hj hjk hjs hq.head
      exact ⟨a, c, fun _ => b⟩
  have hcons' : ∀ j, j ≠ k → ((ins.putLoc l').ph j).consumed = (ins.ph j).consumed := by
    intro j hjk
    by_cases hj : j + 1 = k
    · rw [put_ph_pred ins l' hp hj]
      show l'.prevHeadLen = _
      rw [hq.head]
      simp only [Ins.locAt]; congr 2; omega
    · rw [put_ph_other ins l' hp hjk hj]
  refine ⟨?_, ?_, ?_⟩
  · refine ⟨hg.num, ?_, ?_, ?_, hg.chain, ?_, ?_, ?_, hg.fin, hg.clean, ?_⟩
    · rw [hcons' 0 (by omega)]; exact hg.c0
    · intro j hj hjn hd
      by_cases hjk : j = k
      · subst hjk
        rw [put_ph_self ins l' hp, hq.consumed hd]
        exact hg.cons j hj hjn hd
      · rw [hcons' j hjk]; exact hg.cons j hj hjn hd
    · intro j hj hjn
      by_cases hjk : j = k
      · subst hjk; rw [hself]; exact hq.inv
      · obtain ⟨a, b, c⟩ := hoth j hj hjn hjk
        exact (K j).frame (hg.inv j hj hjn) a (prevOk_put hb hg hk hkn hp hq.inv hj hjn) b c
    · by_cases hnk : n = k
      · subst hnk; rw [put_ph_self ins l' hp, hqeq]; exact hg.out
      · rw [put_ph_other ins l' hp hnk (by omega)]; exact hg.out
    · show l'.ierr + _ = EI
      rw [hq.ierr]; exact hg.ierr
    · show l'.oerr + _ = EO
      rw [hq.oerr]; exact hg.oerr
    · rcases hg.first with h | h
      · left; exact h
      · by_cases hk1 : k = 1
        · subst hk1
          cases hl : (K 1).dec with
          | true =>
            right
            rw [put_ph_pred ins l' (j := 0) hp rfl]
            have h3 : l'.prev.items.length ≤ (ins.ph 0).q.items.length := hq.plen hl
            show l'.prev.items.length + _ ≤ 1
            omega
          | false =>
            left
            exact (K 1).noIn hl (hg.inv 1 (by omega) hkn)
        · right
          rw [put_ph_other ins l' hp (by omega) (by omega)]; exact h
  · have := sumTo_one (n := n)
      (f := fun j => (n + 2) * (F j).toks (rem j ++ fut j)
        + (n + 1 - j) * (K j).pads ((ins.putLoc l').locAt j))
      (g := fun j => (n + 2) * (F j).toks (rem j ++ fut j) + (n + 1 - j) * (K j).pads (ins.locAt j))
      hk hkn (by
        intro j hj hjn hjk
        obtain ⟨a, b, _⟩ := hoth j hj hjn hjk
        simp only [(K j).pads_frame a b])
    unfold workD
    simp only [hself] at this
    have h2 : (n + 1 - k) * (K k).pads l' ≤ (n + 1 - k) * (K k).pads (ins.locAt k) :=
      Nat.mul_le_mul_left _ hq.pads
    omega
  · have := sumTo_one (n := n)
      (f := fun j => (K j).rank ((ins.putLoc l').locAt j)) (g := fun j => (K j).rank (ins.locAt j))
      hk hkn (by
        intro j hj hjn hjk
        obtain ⟨a, b, _⟩ := hoth j hj hjn hjk
        simp only [(K j).rank_frame a b])
    unfold workV
    simp only [hself] at this
    exact this

/-- Replace the value at `k`. -/
def upd (f : Nat → List Datum) (k : Nat) (v : List Datum) : Nat → List Datum :=
  fun j => if j = k then v else f j

theorem upd_self (f : Nat → List Datum) (k : Nat) (v : List Datum) : upd f k v k = v := by simp [upd]
theorem upd_ne (f : Nat → List Datum) {k j : Nat} (v : List Datum) (h : j ≠ k) : upd f k v j = f j := by
  simp [upd, h]

theorem ginv_decide (hb : Built st K n) (hg : GInv st K n E EI EO EF ins F rem fut) (hk : 1 ≤ k) (hkn : k ≤ n)
    (hp : ins.pidx = k) {F' : Beh π} {rem' em : List Datum}
    (hd : Decide (K k).Inv (K k).dec (K k).pads (F k) (ins.locAt k) l' (rem k) (fut k) F' rem' em) :
    ∃ F2 rem2 fut2, GInv st K n E EI EO EF (ins.putLoc l') F2 rem2 fut2 ∧ fut2 1 = fut 1 ∧
    workD st K n (ins.putLoc l') F2 rem2 fut2 < workD st K n ins F rem fut := by
  have hself := locAt_put_self ins l' hk hp
  have hsucc := locAt_put_succ ins l' hk hp
  have hqeq : l'.ph.q = (ins.ph k).q.pushAll em := hd.q
  generalize hrem2 : upd (upd rem k rem') (k + 1) (rem (k + 1) ++ em) = rem2
  generalize hF2 : (fun j => if j = k then F' else F j) = F2
  have F2k : F2 k = F' := by subst hF2; simp
  have F2o : ∀ j, j ≠ k → F2 j = F j := by intro j hj; subst hF2; simp [hj]
  generalize hfut2 : upd fut (k + 1) (F'.out (rem' ++ fut k)) = fut2
  have rk : rem2 k = rem' := by subst hrem2; rw [upd_ne _ _ (by omega), upd_self]
  have rs : rem2 (k + 1) = rem (k + 1) ++ em := by subst hrem2; rw [upd_self]
  have ro : ∀ j, j ≠ k → j ≠ k + 1 → rem2 j = rem j := by
    intro j h1 h2; subst hrem2; rw [upd_ne _ _ h2, upd_ne _ _ h1]
  have fs : fut2 (k + 1) = F'.out (rem' ++ fut k) := by subst hfut2; rw [upd_self]
  have fo : ∀ j, j ≠ k + 1 → fut2 j = fut j := by intro j h; subst hfut2; rw [upd_ne _ _ h]
  have fk : fut2 k = fut k := fo k (by omega)
  have hsplit : k + 1 ≤ n → nonEmpty (fut (k + 1)) = nonEmpty em ++ nonEmpty (fut2 (k + 1)) := by
    intro h
    rw [hg.chain k hk (by omega), hd.out, fs]
  -- the successor's total input is unchanged
  have hin : k + 1 ≤ n → nonEmpty (rem2 (k + 1) ++ fut2 (k + 1)) = nonEmpty (rem (k + 1) ++ fut (k + 1)) := by
    intro h
    rw [rs, nonEmpty_append, nonEmpty_append, nonEmpty_append, hsplit h]; simp
  have hin' : ∀ j, 1 ≤ j → j ≤ n → j ≠ k →
      nonEmpty (rem2 j ++ fut2 j) = nonEmpty (rem j ++ fut j) := by
    intro j hj hjn hjk
    by_cases hjs : j = k + 1
    · subst hjs; exact hin hjn
    · rw [ro j hjk hjs, fo j hjs]
  have hoth : ∀ j, 1 ≤ j → j ≤ n → j ≠ k → j ≠ k + 1 →
      ((ins.putLoc l').locAt j).prev = (ins.locAt j).prev ∧
      ((ins.putLoc l').locAt j).ph = { (ins.locAt j).ph with q := ((ins.putLoc l').locAt j).ph.q } ∧
      ((ins.putLoc l').locAt j).prevHeadLen = (ins.locAt j).prevHeadLen := by
    intro j hj hjn hjk hjs
    obtain ⟨a, b, c⟩ := locAt_put_other ins l' hk hp hj hjk hjs hd.head
    exact ⟨a, c, b⟩
  have hcons' : ∀ j, j ≠ k → ((ins.putLoc l').ph j).consumed = (ins.ph j).consumed := by
    intro j hjk
    by_cases hj : j + 1 = k
    · rw [put_ph_pred ins l' hp hj]
      show l'.prevHeadLen = _
      rw [hd.head]
      simp only [Ins.locAt]; congr 2; omega
    · rw [put_ph_other ins l' hp hjk hj]
  have hdec : k + 1 ≤ n → (K (k + 1)).dec = true → (K k).dec = false := by
    intro h hh
    cases hkd : (K k).dec with
    | false => rfl
    | true => rw [hb.alt k hk (by omega) hkd] at hh; simp at hh
  refine ⟨F2, rem2, fut2, ?_, fo 1 (by omega), ?_⟩
  · refine ⟨hg.num, ?_, ?_, ?_, ?_, ?_, ?_, ?_, ?_, ?_, ?_⟩
    · rw [hcons' 0 (by omega)]; exact hg.c0
    · intro j hj hjn hdj
      by_cases hjk : j = k
      · subst hjk
        rw [put_ph_self ins l' hp, hd.consumed hdj]
        exact hg.cons j hj hjn hdj
      · rw [hcons' j hjk]; exact hg.cons j hj hjn hdj
    · intro j hj hjn
      by_cases hjk : j = k
      · subst hjk; rw [hself, F2k, rk, fk]; exact hd.inv
      · by_cases hjs : j = k + 1
        · subst hjs
          rw [rs, F2o (k + 1) (by omega)]
          refine (K (k + 1)).append (hg.inv (k + 1) hj hjn) (hsplit hjn) ?_ hsucc.2.2 ?_ hd.bytes ?_
          · rw [hsucc.1, hqeq]; rfl
          · intro hh
            rw [hsucc.2.1, hd.consumed (hdec hjn hh)]; rfl
          · intro _
            exact .inl (hg.clean (k + 1) (by omega) hjn)
        · obtain ⟨a, b, c⟩ := hoth j hj hjn hjk hjs
          rw [ro j hjk hjs, fo j hjs, F2o j hjk]
          exact (K j).frame (hg.inv j hj hjn) a (prevOk_put hb hg hk hkn hp hd.inv hj hjn) b (fun _ => c)
    · intro j hj hjn
      by_cases hjk : j = k
      · subst hjk; rw [fs, F2k, rk, fk]
      · rw [F2o j hjk, ((F j).congr (hin' j hj (by omega) hjk)).1]
        rw [fo (j + 1) (by omega)]; exact hg.chain j hj hjn
    · by_cases hnk : n = k
      · subst hnk
        have hqok : (ins.ph n).q.Ok := ((K n).qok (hg.inv n hk hkn)).1
        rw [put_ph_self ins l' hp, hqeq, (Queue.pushAll_ok hqok em).2, nonEmpty_append, F2k, rk, fk]
        have h1 := hg.out
        rw [hd.out] at h1
        rw [List.append_assoc]; exact h1
      · rw [put_ph_other ins l' hp hnk (by omega), F2o n hnk,
          ((F n).congr (hin' n (by omega) (by omega) hnk)).1]
        exact hg.out
    · show l'.ierr + _ = EI
      have h1 := sumTo_one (n := n) (f := fun j => (F2 j).inE (rem2 j ++ fut2 j))
        (g := fun j => (F j).inE (rem j ++ fut j)) hk hkn (by
          intro j hj hjn hjk
          rw [F2o j hjk]; exact ((F j).congr (hin' j hj hjn hjk)).2.1)
      simp only [rk, fk, F2k] at h1
      have h2 := hd.ierr
      have h3 := hg.ierr
      have h4 : (ins.locAt k).ierr = ins.ierr := rfl
      omega
    · show l'.oerr + _ = EO
      have h1 := sumTo_one (n := n) (f := fun j => (F2 j).outE (rem2 j ++ fut2 j))
        (g := fun j => (F j).outE (rem j ++ fut j)) hk hkn (by
          intro j hj hjn hjk
          rw [F2o j hjk]; exact ((F j).congr (hin' j hj hjn hjk)).2.2.1)
      simp only [rk, fk, F2k] at h1
      have h2 := hd.oerr
      have h3 := hg.oerr
      have h4 : (ins.locAt k).oerr = ins.oerr := rfl
      omega
    · intro j hj hjn
      by_cases hjk : j = k
      · subst hjk
        rw [F2k, rk, fk, hd.fin]; exact hg.fin j hj hjn
      · rw [F2o j hjk, ((F j).congr (hin' j hj hjn hjk)).2.2.2.2]; exact hg.fin j hj hjn
    · intro j hj hjn
      by_cases hjk : j = k
      · subst hjk
        rw [F2k, rk, fk]
        have h1 := hg.clean j hj hjn
        have h2 := hd.inErr_le
        omega
      · rw [F2o j hjk, ((F j).congr (hin' j (by omega) hjn hjk)).2.1]; exact hg.clean j hj hjn
    · rcases hg.first with h | h
      · left
        by_cases hk1 : k = 1
        · subst hk1
          rw [F2k, rk, fk]
          have h2 := hd.inErr_le
          omega
        · rw [F2o 1 (by omega), ((F 1).congr (hin' 1 (by omega) (by omega) (by omega))).2.1]; exact h
      · rw [fo 1 (by omega)]
        by_cases hk1 : k = 1
        · subst hk1
          cases hl : (K 1).dec with
          | true =>
            right
            rw [put_ph_pred ins l' (j := 0) hp rfl]
            have h3 : l'.prev.items.length ≤ (ins.ph 0).q.items.length := hd.plen hl
            show l'.prev.items.length + _ ≤ 1
            omega
          | false =>
            left
            rw [F2k, rk]
            exact (K 1).noIn hl hd.inv
        · right
          rw [put_ph_other ins l' hp (by omega) (by omega)]; exact h
  · -- the work decreases: first the visited phase, then its successor
    unfold workD
    have h1 := sumTo_one (n := n)
      (f := fun j => if j = k then (n + 2) * F'.toks (rem' ++ fut k) + (n + 1 - k) * (K k).pads l'
        else (n + 2) * (F j).toks (rem j ++ fut j) + (n + 1 - j) * (K j).pads (ins.locAt j))
      (g := fun j => (n + 2) * (F j).toks (rem j ++ fut j) + (n + 1 - j) * (K j).pads (ins.locAt j))
      hk hkn (by intro j _ _ hjk; simp only [if_neg hjk])
    simp only [if_true] at h1
    have hw : (n + 2) * F'.toks (rem' ++ fut k) + (n + 1 - k) * (K k).pads l'
        + (n - k) * empties em + 1
        ≤ (n + 2) * (F k).toks (rem k ++ fut k) + (n + 1 - k) * (K k).pads (ins.locAt k) := by
      rcases hd.measure with ⟨m1, m2⟩ | ⟨m1, m2, m3⟩
      · have m4 := Nat.mul_le_mul_left (n + 2) m1
        rw [Nat.mul_add, Nat.mul_add] at m4
        have m5 : (n - k) * empties em ≤ (n + 2) * empties em := Nat.mul_le_mul_right _ (by omega)
        have : (n + 1 - k) * (K k).pads l' ≤ (n + 1 - k) * (K k).pads (ins.locAt k) + (n + 1 - k) := by
          have := Nat.mul_le_mul_left (n + 1 - k) m2
          rw [Nat.mul_add] at this; omega
        omega
      · rw [m1]
        have h2 := Nat.mul_le_mul_left (n + 1 - k) m2
        rw [Nat.mul_add] at h2
        have h3 : (n - k) * empties em ≤ (n - k) * 1 := Nat.mul_le_mul_left _ m3
        omega
    by_cases hks : k + 1 ≤ n
    · have h2 := sumTo_one (n := n)
        (f := fun j => (n + 2) * (F2 j).toks (rem2 j ++ fut2 j)
          + (n + 1 - j) * (K j).pads ((ins.putLoc l').locAt j))
        (g := fun j => if j = k then (n + 2) * F'.toks (rem' ++ fut k) + (n + 1 - k) * (K k).pads l'
          else (n + 2) * (F j).toks (rem j ++ fut j) + (n + 1 - j) * (K j).pads (ins.locAt j))
        (k := k + 1) (by omega) hks (by
          intro j hj hjn hjk
          by_cases hj1 : j = k
          · subst hj1
            simp only [if_true, hself, rk, fk, F2k]
          · obtain ⟨a, b, _⟩ := hoth j hj hjn hj1 hjk
            simp only [if_neg hj1, (K j).pads_frame a b, F2o j hj1,
              ((F j).congr (hin' j hj hjn hj1)).2.2.2.1])
      have hne : ¬ k + 1 = k := by omega
      simp only [if_neg hne] at h2
      rw [F2o (k + 1) (by omega), ((F (k + 1)).congr (hin hks)).2.2.2.1] at h2
      have h3 := (K (k + 1)).pads_append (hg.inv (k + 1) (by omega) hks) (l' := (ins.putLoc l').locAt (k + 1)) (em := em)
        (by rw [hsucc.1, hqeq]; rfl) hsucc.2.2
      have h4 := Nat.mul_le_mul_left (n + 1 - (k + 1)) h3
      rw [Nat.mul_add] at h4
      have h5 : n + 1 - (k + 1) = n - k := by omega
      rw [h5] at h4 h2
      omega
    · have h2 := sumTo_congr (n := n)
        (f := fun j => (n + 2) * (F2 j).toks (rem2 j ++ fut2 j)
          + (n + 1 - j) * (K j).pads ((ins.putLoc l').locAt j))
        (g := fun j => if j = k then (n + 2) * F'.toks (rem' ++ fut k) + (n + 1 - k) * (K k).pads l'
          else (n + 2) * (F j).toks (rem j ++ fut j) + (n + 1 - j) * (K j).pads (ins.locAt j))
        (by
          intro j hj hjn
          by_cases hj1 : j = k
          · subst hj1
            simp only [if_true, hself, rk, fk, F2k]
          · obtain ⟨a, b, _⟩ := hoth j hj hjn hj1 (by omega)
            simp only [if_neg hj1, (K j).pads_frame a b, F2o j hj1,
              ((F j).congr (hin' j hj hjn hj1)).2.2.2.1])
      rw [h2]
      omega

end Verif.Engine
