import Verif.Proofs.EngineGlobal

/-! The engine's main loop: termination and result. -/

namespace Verif.Engine
open Verif.Spec

variable {π : Type} {st : Nat → Static π} {K : ∀ k, Kind (st k)} {n : Nat} {E : List Datum} {EI EO : Nat}
  {EF : Nat → (Nat → π) → Prop}

theorem ginv_pidx {ins : Ins π} {F : Nat → Beh π} {rem fut : Nat → List Datum} (hg : GInv st K n E EI EO EF ins F rem fut)
    (x : Nat) : GInv st K n E EI EO EF { ins with pidx := x } F rem fut :=
  ⟨hg.num, hg.c0, hg.cons, hg.inv, hg.chain, hg.out, hg.ierr, hg.oerr, hg.fin, hg.clean, hg.first⟩

/-- No phase has unread input. -/
def Idle (ins : Ins π) : Prop :=
  ∀ k, 1 ≤ k → k ≤ ins.phasen → ¬ (ins.ph k).curr < (ins.ph (k - 1)).q.items.length

/-- No phase waits for more input. -/
def NoPending (ins : Ins π) : Prop :=
  ∀ k, 1 ≤ k → k ≤ ins.phasen → (ins.ph k).fPending = false

theorem findBack_none {ins : Ins π} {m : Nat} (h : ins.findBack m = none) :
    ∀ k, 1 ≤ k → k ≤ m → ¬ (ins.ph k).curr < (ins.ph (k - 1)).q.items.length := by
  induction m with
  | zero => intro k h1 h2; omega
  | succ m ih =>
    simp only [Ins.findBack] at h
    split at h
    · simp at h
    · rename_i hn
      intro k h1 h2
      by_cases hk : k = m + 1
      · subst hk
        simpa [Queue.hasNext] using hn
      · exact ih h k h1 (by omega)

theorem findBack_some {ins : Ins π} {m k : Nat} (h : ins.findBack m = some k) :
    1 ≤ k ∧ k ≤ m ∧ (ins.ph k).curr < (ins.ph (k - 1)).q.items.length := by
  induction m with
  | zero => simp [Ins.findBack] at h
  | succ m ih =>
    simp only [Ins.findBack] at h
    split at h
    · rename_i hn
      cases h
      exact ⟨by omega, by omega, by simpa [Queue.hasNext] using hn⟩
    · obtain ⟨h1, h2, h3⟩ := ih h
      exact ⟨h1, by omega, h3⟩

theorem findPending_none {ins : Ins π} {j m : Nat} (h : ins.findPending j m = none) :
    ∀ k, j ≤ k → k < j + m → (ins.ph k).fPending = false := by
  induction m generalizing j with
  | zero => intro k h1 h2; omega
  | succ m ih =>
    simp only [Ins.findPending] at h
    split at h
    · simp at h
    · rename_i hn
      intro k h1 h2
      by_cases hk : k = j
      · subst hk; simpa using hn
      · exact ih h k (by omega) (by omega)

theorem findPending_some {ins : Ins π} {j m k : Nat} (h : ins.findPending j m = some k) :
    j ≤ k ∧ k < j + m ∧ (ins.ph k).fPending = true ∧
      ∀ i, j ≤ i → i < k → (ins.ph i).fPending = false := by
  induction m generalizing j with
  | zero => simp [Ins.findPending] at h
  | succ m ih =>
    simp only [Ins.findPending] at h
    split at h
    · rename_i hn
      cases h
      exact ⟨by omega, by omega, hn, fun i h1 h2 => by omega⟩
    · rename_i hn
      obtain ⟨h1, h2, h3, h4⟩ := ih h
      refine ⟨by omega, by omega, h3, ?_⟩
      intro i hi1 hi2
      by_cases hij : i = j
      · subst hij; simpa using hn
      · exact h4 i (by omega) hi2

/-- If no earlier phase is pending and no input will come, a phase gets no more input. -/
theorem fut_empty {ins : Ins π} {F : Nat → Beh π} {rem fut : Nat → List Datum} (hg : GInv st K n E EI EO EF ins F rem fut)
    (hidle : Idle ins) (hf : nonEmpty (fut 1) = []) {k : Nat} (hk : 1 ≤ k) (hkn : k ≤ n)
    (hp : ∀ i, 1 ≤ i → i < k → (ins.ph i).fPending = false) : nonEmpty (fut k) = [] := by
  induction k with
  | zero => omega
  | succ k ih =>
    by_cases hk1 : k = 0
    · subst hk1; exact hf
    · have h1 := ih (by omega) (by omega) (fun i h1 h2 => hp i h1 (by omega))
      have h2 := (K k).idle (hg.inv k (by omega) (by omega))
        (hidle k (by omega) (by rw [hg.num]; omega)) (hp k (by omega) (by omega)) h1
      rw [hg.chain k (by omega) (by omega)]
      exact h2.1

/-- Where the main loop stands. -/
def LoopPC (st : Nat → Static π) (n : Nat) (ins : Ins π) (pc : PC) (r : Nat) : Prop :=
  (pc = .checkBack ∧ r = 0) ∨
  (1 ≤ ins.pidx ∧ r = 1 ∧ (pc = .begin ∨ (ins.pidx ≤ n ∧ pc = (st ins.pidx).type.outer)))

theorem outer_local_ne (t : PType) : t.outer ≠ .begin ∧ t.outer ≠ .checkBack := by
  cases t <;> simp [PType.outer]

theorem lexD {a' a b' b c' c : Nat} (h : a' < a) :
    Prod.Lex (· < ·) (Prod.Lex (· < ·) (· < ·)) (a', b', c') (a, b, c) := .left _ _ h

theorem lexV {a' a b' b c' c : Nat} (h : a' ≤ a) (h2 : b' < b) :
    Prod.Lex (· < ·) (Prod.Lex (· < ·) (· < ·)) (a', b', c') (a, b, c) := by
  rcases Nat.lt_or_eq_of_le h with h | h
  · exact .left _ _ h
  · subst h; exact .right _ (.left _ _ h2)

theorem lexR {a' a b' b r : Nat} (h : a' ≤ a) (h2 : b' ≤ b) (hr : r = 1) :
    Prod.Lex (· < ·) (Prod.Lex (· < ·) (· < ·)) (a', b', 0) (a, b, r) := by
  subst hr
  rcases Nat.lt_or_eq_of_le h2 with h2 | h2
  · exact lexV h h2
  · rcases Nat.lt_or_eq_of_le h with h | h
    · exact .left _ _ h
    · subst h; subst h2; exact .right _ (.right _ (by omega))

/-- The main loop ends, and everything that was read has been converted. -/
theorem engine_loop (hb : Built st K n) (ins : Ins π) (F : Nat → Beh π) (rem fut : Nat → List Datum) (pc : PC) (r : Nat)
    (hg : GInv st K n E EI EO EF ins F rem fut) (hfl : ins.flush = true → nonEmpty (fut 1) = [])
    (hpc : LoopPC st n ins pc r) :
    ∃ ins' F' rem' fut', Reach st (ins, pc) (ins', .done) ∧ GInv st K n E EI EO EF ins' F' rem' fut' ∧
      fut' 1 = fut 1 ∧ Idle ins' ∧ (ins.flush = true → NoPending ins') ∧ ins'.flush = ins.flush := by
  -- finishing a visit of phase `ins1.pidx`
  rcases hpc with ⟨rfl, hr0⟩ | ⟨hp1, hr1, hpc⟩
  · -- check_back
    have hstep : ∀ c, ins.findBack ins.phasen = c → Verif.Engine.step st (ins, .checkBack)
        = match c with
          | some k => ({ ins with pidx := k }, .begin)
          | none => ({ ins with pidx := 0 }, .flushScan) := by
      intro c hc; simp only [step, hc]; rfl
    cases hc : ins.findBack ins.phasen with
    | some k =>
      have hs := hstep _ hc
      simp only at hs
      obtain ⟨hk1, hk2, hk3⟩ := findBack_some hc
      rw [hg.num] at hk2
      have hg1 := ginv_pidx hg k
      generalize hins1 : ({ ins with pidx := k } : Ins π) = ins1 at hg1 hs
      have hpk : ins1.pidx = k := by subst hins1; rfl
      have hfl1 : ins1.flush = ins.flush := by subst hins1; rfl
      have hloc : ins1.loc = ins1.locAt k := by rw [loc_eq, hpk]
      have hs2 : Verif.Engine.step st (ins1, .begin) = (ins1, (st k).type.outer) := by
        have : 0 < ins1.pidx ∧ ins1.pidx ≤ ins1.phasen := by rw [hg1.num, hpk]; omega
        simp only [step]; rw [if_pos this, hpk]
      have hD1 : workD st K n ins1 F rem fut = workD st K n ins F rem fut := by subst hins1; rfl
      have hV1 : workV st K n ins1 = workV st K n ins := by subst hins1; rfl
      have hreach0 : Reach st (ins, .checkBack) (ins1, (st k).type.outer) :=
        (Reach.step hs).trans (Reach.step hs2)
      have hk3' : (ins1.locAt k).ph.curr < (ins1.locAt k).prev.items.length := by
        subst hins1; exact hk3
      rcases (K k).visit (hg1.inv k hk1 hk2) with
        ⟨l', ctl, h1, h2, h3, h4, h5⟩ | ⟨l', ctl, F', rem', em, h1, h2, h3⟩
      · have hr := LReach.lift (ins := ins1) (by omega) (by rw [hpk]; exact h1) hloc
        obtain ⟨hg2, hD2, hV2⟩ := ginv_quiet hb hg1 hk1 hk2 hpk h3
        have h4' := h4 hk3'
        rcases h2 with rfl | rfl
        · have hs3 : Verif.Engine.step st (ins1.putLoc l', .leave)
              = ({ ins1.putLoc l' with pidx := (ins1.putLoc l').pidx + 1 }, .checkBack) := rfl
          have hg3 := ginv_pidx hg2 ((ins1.putLoc l').pidx + 1)
          have hDd : workD st K n { ins1.putLoc l' with pidx := (ins1.putLoc l').pidx + 1 } F rem fut
              ≤ workD st K n ins F rem fut := by rw [← hD1]; exact hD2
          have hVd : workV st K n { ins1.putLoc l' with pidx := (ins1.putLoc l').pidx + 1 }
              < workV st K n ins := by
            show workV st K n (ins1.putLoc l') < _
            omega
          obtain ⟨ins', F2, rem2, fut2, g1, g2, g3, g4, g5, g6⟩ := engine_loop hb _ F rem fut .checkBack 0 hg3
            (by intro h; exact hfl (by rw [← hfl1]; exact h)) (.inl ⟨rfl, rfl⟩)
          exact ⟨ins', F2, rem2, fut2, hreach0.trans (hr.trans ((Reach.step hs3).trans g1)), g2, g3, g4,
            fun h => g5 (by show ins1.flush = true; rw [hfl1]; exact h), g6.trans hfl1⟩
        · have hg3 := ginv_pidx hg2 (ins1.pidx + 1)
          have hDd : workD st K n { ins1.putLoc l' with pidx := ins1.pidx + 1 } F rem fut
              ≤ workD st K n ins F rem fut := by rw [← hD1]; exact hD2
          have hVd : workV st K n { ins1.putLoc l' with pidx := ins1.pidx + 1 } < workV st K n ins := by
            show workV st K n (ins1.putLoc l') < _
            omega
          obtain ⟨ins', F2, rem2, fut2, g1, g2, g3, g4, g5, g6⟩ := engine_loop hb _ F rem fut .begin 1 hg3
            (by intro h; exact hfl (by rw [← hfl1]; exact h)) (.inr ⟨by simp, rfl, .inl rfl⟩)
          exact ⟨ins', F2, rem2, fut2, hreach0.trans (hr.trans g1), g2, g3, g4,
            fun h => g5 (by show ins1.flush = true; rw [hfl1]; exact h), g6.trans hfl1⟩
      · have hr := LReach.lift (ins := ins1) (by omega) (by rw [hpk]; exact h1) hloc
        obtain ⟨F3, rem3, fut3, hg2, hf2, hD2⟩ := ginv_decide hb hg1 hk1 hk2 hpk h3
        have hfut : ins1.flush = true → nonEmpty (fut3 1) = [] := by
          intro h; rw [hf2]; exact hfl (by rw [← hfl1]; exact h)
        rcases h2 with rfl | rfl | rfl
        · have hDd : workD st K n (ins1.putLoc l') F3 rem3 fut3 < workD st K n ins F rem fut := by omega
          obtain ⟨ins', F2, rem2, fut2, g1, g2, g3, g4, g5, g6⟩ := engine_loop hb (ins1.putLoc l') F3 rem3 fut3
            .begin 1 hg2 hfut (.inr ⟨by show 1 ≤ ins1.pidx; omega, rfl, .inl rfl⟩)
          exact ⟨ins', F2, rem2, fut2, hreach0.trans (hr.trans g1), g2, g3.trans hf2, g4,
            fun h => g5 (by show ins1.flush = true; rw [hfl1]; exact h), g6.trans hfl1⟩
        · have hDd : workD st K n (ins1.putLoc l') F3 rem3 fut3 < workD st K n ins F rem fut := by omega
          obtain ⟨ins', F2, rem2, fut2, g1, g2, g3, g4, g5, g6⟩ := engine_loop hb (ins1.putLoc l') F3 rem3 fut3
            (st k).type.outer 1 hg2 hfut
            (.inr ⟨by show 1 ≤ ins1.pidx; omega, rfl, .inr ⟨by show ins1.pidx ≤ n; omega,
              by show _ = (st ins1.pidx).type.outer; rw [hpk]⟩⟩)
          exact ⟨ins', F2, rem2, fut2, hreach0.trans (hr.trans g1), g2, g3.trans hf2, g4,
            fun h => g5 (by show ins1.flush = true; rw [hfl1]; exact h), g6.trans hfl1⟩
        · have hg3 := ginv_pidx hg2 (ins1.pidx + 1)
          have hDd : workD st K n { ins1.putLoc l' with pidx := ins1.pidx + 1 } F3 rem3 fut3
              < workD st K n ins F rem fut := by
            show workD st K n (ins1.putLoc l') F3 rem3 fut3 < _
            omega
          obtain ⟨ins', F2, rem2, fut2, g1, g2, g3, g4, g5, g6⟩ := engine_loop hb _ F3 rem3 fut3 .begin 1 hg3
            hfut (.inr ⟨by simp, rfl, .inl rfl⟩)
          exact ⟨ins', F2, rem2, fut2, hreach0.trans (hr.trans g1), g2, g3.trans hf2, g4,
            fun h => g5 (by show ins1.flush = true; rw [hfl1]; exact h), g6.trans hfl1⟩
    | none =>
      have hs := hstep _ hc
      simp only at hs
      have hidle0 : Idle ins := by
        intro k h1 h2; exact findBack_none hc k h1 h2
      have hg1 := ginv_pidx hg 0
      generalize hins1 : ({ ins with pidx := 0 } : Ins π) = ins1 at hg1 hs
      have hfl1 : ins1.flush = ins.flush := by subst hins1; rfl
      have hidle1 : Idle ins1 := by subst hins1; exact hidle0
      have hD1 : workD st K n ins1 F rem fut = workD st K n ins F rem fut := by subst hins1; rfl
      have hV1 : workV st K n ins1 = workV st K n ins := by subst hins1; rfl
      cases hflush : ins1.flush with
      | false =>
        have hs2 : Verif.Engine.step st (ins1, .flushScan) = (ins1, .done) := by
          simp only [step, hflush]; rfl
        exact ⟨ins1, F, rem, fut, (Reach.step hs).trans (Reach.step hs2), hg1, rfl, hidle1,
          fun h => by rw [← hfl1, hflush] at h; simp at h, hflush ▸ hfl1⟩
      | true =>
        cases hpd : ins1.findPending 1 ins1.phasen with
        | none =>
          have hs2 : Verif.Engine.step st (ins1, .flushScan)
              = ({ ins1 with pidx := ins1.phasen + 1 }, .done) := by
            simp only [step, hflush, if_true, hpd]
          refine ⟨_, F, rem, fut, (Reach.step hs).trans (Reach.step hs2), ginv_pidx hg1 _, rfl, hidle1, ?_, hfl1⟩
          intro _ k h1 h2
          exact findPending_none hpd k h1 (by show k < 1 + ins1.phasen; have : k ≤ ins1.phasen := h2; omega)
        | some k =>
          obtain ⟨hk1, hk2, hk3, hk4⟩ := findPending_some hpd
          have hk2' : k ≤ n := by rw [hg1.num] at hk2; omega
          have hs2 : Verif.Engine.step st (ins1, .flushScan)
              = ({ ins1 with pidx := k }, (st k).type.dead) := by
            simp only [step, hflush, if_true, hpd]
          have hg1' := ginv_pidx hg1 k
          generalize hins2 : ({ ins1 with pidx := k } : Ins π) = ins2 at hg1' hs2
          have hpk : ins2.pidx = k := by subst hins2; rfl
          have hfl2 : ins2.flush = ins.flush := by subst hins2; exact hfl1
          have hloc : ins2.loc = ins2.locAt k := by rw [loc_eq, hpk]
          have hD2' : workD st K n ins2 F rem fut = workD st K n ins F rem fut := by subst hins2; exact hD1
          have hV2' : workV st K n ins2 = workV st K n ins := by subst hins2; exact hV1
          have hreach0 : Reach st (ins, .checkBack) (ins2, (st k).type.dead) :=
            (Reach.step hs).trans (Reach.step hs2)
          have hflt : ins.flush = true := by rw [← hfl1]; exact hflush
          have hfk := fut_empty hg1 hidle1 (hfl hflt) hk1 hk2' (fun i h1 h2 => hk4 i h1 h2)
          have hendk : (ins2.locAt k).ph.curr = (ins2.locAt k).prev.items.length := by
            have h1 := hidle1 k hk1 (by rw [hg1.num]; exact hk2')
            have h2 := ((K k).qok (hg1.inv k hk1 hk2')).2.2
            subst hins2
            simp only [Ins.locAt] at h2 ⊢
            omega
          have hpend : (ins2.locAt k).ph.fPending = true := by subst hins2; exact hk3
          rcases (K k).flush (hg1'.inv k hk1 hk2') hfk hendk hpend with
            ⟨l', ctl, h1, h2, h3, h4⟩ | ⟨l', ctl, F', rem', em, h1, h2, h3⟩
          · have hr := LReach.lift (ins := ins2) (by omega) (by rw [hpk]; exact h1) hloc
            obtain ⟨hg2, hD2, hV2⟩ := ginv_quiet hb hg1' hk1 hk2' hpk h3
            rcases h2 with rfl | rfl
            · have hs3 : Verif.Engine.step st (ins2.putLoc l', .leave)
                  = ({ ins2.putLoc l' with pidx := (ins2.putLoc l').pidx + 1 }, .checkBack) := rfl
              have hg3 := ginv_pidx hg2 ((ins2.putLoc l').pidx + 1)
              have hDd : workD st K n { ins2.putLoc l' with pidx := (ins2.putLoc l').pidx + 1 } F rem fut
                  ≤ workD st K n ins F rem fut := by rw [← hD2']; exact hD2
              have hVd : workV st K n { ins2.putLoc l' with pidx := (ins2.putLoc l').pidx + 1 }
                  < workV st K n ins := by
                show workV st K n (ins2.putLoc l') < _
                omega
              obtain ⟨ins', F2, rem2, fut2, g1, g2, g3, g4, g5, g6⟩ := engine_loop hb _ F rem fut .checkBack 0 hg3
                (by intro h; exact hfl hflt) (.inl ⟨rfl, rfl⟩)
              exact ⟨ins', F2, rem2, fut2, hreach0.trans (hr.trans ((Reach.step hs3).trans g1)), g2, g3, g4,
                fun h => g5 (by show ins2.flush = true; rw [hfl2]; exact h), g6.trans hfl2⟩
            · have hg3 := ginv_pidx hg2 (ins2.pidx + 1)
              have hDd : workD st K n { ins2.putLoc l' with pidx := ins2.pidx + 1 } F rem fut
                  ≤ workD st K n ins F rem fut := by rw [← hD2']; exact hD2
              have hVd : workV st K n { ins2.putLoc l' with pidx := ins2.pidx + 1 } < workV st K n ins := by
                show workV st K n (ins2.putLoc l') < _
                omega
              obtain ⟨ins', F2, rem2, fut2, g1, g2, g3, g4, g5, g6⟩ := engine_loop hb _ F rem fut .begin 1 hg3
                (by intro h; exact hfl hflt) (.inr ⟨by simp, rfl, .inl rfl⟩)
              exact ⟨ins', F2, rem2, fut2, hreach0.trans (hr.trans g1), g2, g3, g4,
                fun h => g5 (by show ins2.flush = true; rw [hfl2]; exact h), g6.trans hfl2⟩
          · have hr := LReach.lift (ins := ins2) (by omega) (by rw [hpk]; exact h1) hloc
            obtain ⟨F3, rem3, fut3, hg2, hf2, hD2⟩ := ginv_decide hb hg1' hk1 hk2' hpk h3
            have hfut : ins2.flush = true → nonEmpty (fut3 1) = [] := by
              intro h; rw [hf2]; exact hfl hflt
            rcases h2 with rfl | rfl | rfl
            · have hDd : workD st K n (ins2.putLoc l') F3 rem3 fut3 < workD st K n ins F rem fut := by omega
              obtain ⟨ins', F2, rem2, fut2, g1, g2, g3, g4, g5, g6⟩ := engine_loop hb (ins2.putLoc l') F3 rem3 fut3
                .begin 1 hg2 hfut (.inr ⟨by show 1 ≤ ins2.pidx; omega, rfl, .inl rfl⟩)
              exact ⟨ins', F2, rem2, fut2, hreach0.trans (hr.trans g1), g2, g3.trans hf2, g4,
                fun h => g5 (by show ins2.flush = true; rw [hfl2]; exact h), g6.trans hfl2⟩
            · have hDd : workD st K n (ins2.putLoc l') F3 rem3 fut3 < workD st K n ins F rem fut := by omega
              obtain ⟨ins', F2, rem2, fut2, g1, g2, g3, g4, g5, g6⟩ := engine_loop hb (ins2.putLoc l') F3 rem3 fut3
                (st k).type.outer 1 hg2 hfut
                (.inr ⟨by show 1 ≤ ins2.pidx; omega, rfl, .inr ⟨by show ins2.pidx ≤ n; omega,
                  by show _ = (st ins2.pidx).type.outer; rw [hpk]⟩⟩)
              exact ⟨ins', F2, rem2, fut2, hreach0.trans (hr.trans g1), g2, g3.trans hf2, g4,
                fun h => g5 (by show ins2.flush = true; rw [hfl2]; exact h), g6.trans hfl2⟩
            · have hg3 := ginv_pidx hg2 (ins2.pidx + 1)
              have hDd : workD st K n { ins2.putLoc l' with pidx := ins2.pidx + 1 } F3 rem3 fut3
                  < workD st K n ins F rem fut := by
                show workD st K n (ins2.putLoc l') F3 rem3 fut3 < _
                omega
              obtain ⟨ins', F2, rem2, fut2, g1, g2, g3, g4, g5, g6⟩ := engine_loop hb _ F3 rem3 fut3 .begin 1 hg3
                hfut (.inr ⟨by simp, rfl, .inl rfl⟩)
              exact ⟨ins', F2, rem2, fut2, hreach0.trans (hr.trans g1), g2, g3.trans hf2, g4,
                fun h => g5 (by show ins2.flush = true; rw [hfl2]; exact h), g6.trans hfl2⟩
  · by_cases hpn : ins.pidx ≤ n
    · -- a visit
      generalize hpk : ins.pidx = k at *
      have hreach0 : Reach st (ins, pc) (ins, (st k).type.outer) := by
        rcases hpc with rfl | ⟨_, rfl⟩
        · apply Reach.step
          have : 0 < ins.pidx ∧ ins.pidx ≤ ins.phasen := by rw [hg.num, hpk]; omega
          simp only [step]; rw [if_pos this, hpk]
        · exact Reach.refl _ _
      have hloc : ins.loc = ins.locAt k := by rw [loc_eq, hpk]
      rcases (K k).visit (hg.inv k hp1 hpn) with
        ⟨l', ctl, h1, h2, h3, h4, h5⟩ | ⟨l', ctl, F', rem', em, h1, h2, h3⟩
      · have hr := LReach.lift (ins := ins) (by omega) (by rw [hpk]; exact h1) hloc
        obtain ⟨hg2, hD2, hV2⟩ := ginv_quiet hb hg hp1 hpn hpk h3
        have hrk := h3.rank
        rcases h2 with rfl | rfl
        · have hs3 : Verif.Engine.step st (ins.putLoc l', .leave)
              = ({ ins.putLoc l' with pidx := (ins.putLoc l').pidx + 1 }, .checkBack) := rfl
          have hg3 := ginv_pidx hg2 ((ins.putLoc l').pidx + 1)
          have hDd : workD st K n { ins.putLoc l' with pidx := (ins.putLoc l').pidx + 1 } F rem fut
              ≤ workD st K n ins F rem fut := hD2
          have hVd : workV st K n { ins.putLoc l' with pidx := (ins.putLoc l').pidx + 1 }
              ≤ workV st K n ins := by
            show workV st K n (ins.putLoc l') ≤ _
            omega
          obtain ⟨ins', F2, rem2, fut2, g1, g2, g3, g4, g5, g6⟩ := engine_loop hb _ F rem fut .checkBack 0 hg3
            hfl (.inl ⟨rfl, rfl⟩)
          exact ⟨ins', F2, rem2, fut2, hreach0.trans (hr.trans ((Reach.step hs3).trans g1)), g2, g3, g4, g5, g6⟩
        · have h4' := h4 (h5 rfl)
          have hg3 := ginv_pidx hg2 (ins.pidx + 1)
          have hDd : workD st K n { ins.putLoc l' with pidx := ins.pidx + 1 } F rem fut
              ≤ workD st K n ins F rem fut := hD2
          have hVd : workV st K n { ins.putLoc l' with pidx := ins.pidx + 1 } < workV st K n ins := by
            show workV st K n (ins.putLoc l') < _
            omega
          obtain ⟨ins', F2, rem2, fut2, g1, g2, g3, g4, g5, g6⟩ := engine_loop hb _ F rem fut .begin 1 hg3
            hfl (.inr ⟨by simp, rfl, .inl rfl⟩)
          exact ⟨ins', F2, rem2, fut2, hreach0.trans (hr.trans g1), g2, g3, g4, g5, g6⟩
      · have hr := LReach.lift (ins := ins) (by omega) (by rw [hpk]; exact h1) hloc
        obtain ⟨F3, rem3, fut3, hg2, hf2, hD2⟩ := ginv_decide hb hg hp1 hpn hpk h3
        have hfut : ins.flush = true → nonEmpty (fut3 1) = [] := by
          intro h; rw [hf2]; exact hfl h
        rcases h2 with rfl | rfl | rfl
        · obtain ⟨ins', F2, rem2, fut2, g1, g2, g3, g4, g5, g6⟩ := engine_loop hb (ins.putLoc l') F3 rem3 fut3
            .begin 1 hg2 hfut (.inr ⟨by show 1 ≤ ins.pidx; omega, rfl, .inl rfl⟩)
          exact ⟨ins', F2, rem2, fut2, hreach0.trans (hr.trans g1), g2, g3.trans hf2, g4, g5, g6⟩
        · obtain ⟨ins', F2, rem2, fut2, g1, g2, g3, g4, g5, g6⟩ := engine_loop hb (ins.putLoc l') F3 rem3 fut3
            (st k).type.outer 1 hg2 hfut
            (.inr ⟨by show 1 ≤ ins.pidx; omega, rfl, .inr ⟨by show ins.pidx ≤ n; omega,
              by show _ = (st ins.pidx).type.outer; rw [hpk]⟩⟩)
          exact ⟨ins', F2, rem2, fut2, hreach0.trans (hr.trans g1), g2, g3.trans hf2, g4, g5, g6⟩
        · have hg3 := ginv_pidx hg2 (ins.pidx + 1)
          have hDd : workD st K n { ins.putLoc l' with pidx := ins.pidx + 1 } F3 rem3 fut3
              < workD st K n ins F rem fut := hD2
          obtain ⟨ins', F2, rem2, fut2, g1, g2, g3, g4, g5, g6⟩ := engine_loop hb _ F3 rem3 fut3 .begin 1 hg3
            hfut (.inr ⟨by simp, rfl, .inl rfl⟩)
          exact ⟨ins', F2, rem2, fut2, hreach0.trans (hr.trans g1), g2, g3.trans hf2, g4, g5, g6⟩
    · -- past the last phase
      rcases hpc with rfl | ⟨h, _⟩
      · have hs : Verif.Engine.step st (ins, .begin) = (ins, .checkBack) := by
          have : ¬ (0 < ins.pidx ∧ ins.pidx ≤ ins.phasen) := by rw [hg.num]; omega
          simp only [step, if_neg this]
        obtain ⟨ins', F2, rem2, fut2, g1, g2, g3, g4, g5, g6⟩ := engine_loop hb ins F rem fut .checkBack 0 hg
          hfl (.inl ⟨rfl, rfl⟩)
        exact ⟨ins', F2, rem2, fut2, (Reach.step hs).trans g1, g2, g3, g4, g5, g6⟩
      · exact absurd h hpn
termination_by (workD st K n ins F rem fut, workV st K n ins, r)
decreasing_by
  all_goals first
    | exact lexD hDd
    | exact lexD hD2
    | exact lexV hDd hVd
    | exact lexR hDd hVd hr1
    | exact lexR (Nat.le_refl _) (Nat.le_refl _) hr1

end Verif.Engine
