import Verif.Proofs.EngineFrom2

/-! From local runs of one phase to runs of the whole engine. -/

namespace Verif.Engine
open Verif.Spec

variable {π : Type}

theorem run_add (st : Nat → Static π) (m n : Nat) (c : Ins π × PC) :
    run st (m + n) c = run st n (run st m c) := by
  induction m generalizing c with
  | zero => simp [run]
  | succ m ih => rw [Nat.succ_add]; simp only [run]; exact ih _

/-- `c'` is reached from `c`. -/
def Reach (st : Nat → Static π) (c c' : Ins π × PC) : Prop := ∃ n, run st n c = c'

theorem Reach.refl (st : Nat → Static π) (c : Ins π × PC) : Reach st c c := ⟨0, rfl⟩

theorem Reach.trans {st : Nat → Static π} {a b c : Ins π × PC} (h : Reach st a b) (k : Reach st b c) :
    Reach st a c := by
  obtain ⟨m, rfl⟩ := h
  obtain ⟨n, rfl⟩ := k
  exact ⟨m + n, run_add st m n a⟩

theorem Reach.step {st : Nat → Static π} {a b : Ins π × PC} (h : Verif.Engine.step st a = b) :
    Reach st a b := ⟨1, h⟩

/-- Phase `k` seen locally. -/
def Ins.locAt (ins : Ins π) (k : Nat) : Loc π :=
  { prev := (ins.ph (k - 1)).q, prevHeadLen := (ins.ph (k - 1)).consumed, ph := ins.ph k,
    ierr := ins.ierr, oerr := ins.oerr }

theorem loc_eq (ins : Ins π) : ins.loc = ins.locAt ins.pidx := rfl

theorem loc_putLoc (ins : Ins π) (l : Loc π) (h : 1 ≤ ins.pidx) : (ins.putLoc l).loc = l := by
  have h1 : ¬ ins.pidx - 1 = ins.pidx := by omega
  have h2 : ins.pidx - 1 + 1 = ins.pidx := by omega
  simp [Ins.loc, Ins.putLoc, h1, h2]

theorem putLoc_putLoc (ins : Ins π) (l l' : Loc π) : (ins.putLoc l).putLoc l' = ins.putLoc l' := by
  simp only [Ins.putLoc]
  congr 1
  funext j
  by_cases h1 : j = ins.pidx
  · simp [h1]
  · by_cases h2 : j + 1 = ins.pidx
    · simp [h1, h2]
    · simp [h1, h2]

theorem putLoc_loc (ins : Ins π) (h : 1 ≤ ins.pidx) : ins.putLoc ins.loc = ins := by
  cases ins with
  | mk ph phasen pidx flush ierr oerr =>
    simp only [Ins.putLoc, Ins.loc]
    congr 1
    funext j
    by_cases h1 : j = pidx
    · simp [h1]
    · by_cases h2 : j + 1 = pidx
      · have h3 : pidx - 1 = j := by simp only at h; omega
        simp [h1, h2, h3]
      · simp [h1, h2]

/-- Where the engine continues after a local run. -/
def after (ins : Ins π) (l : Loc π) : Ctl → Ins π × PC
  | .goto pc => (ins.putLoc l, pc)
  | .nextBegin => ({ ins.putLoc l with pidx := ins.pidx + 1 }, .begin)

theorem step_local (st : Nat → Static π) (ins : Ins π) (pc : PC) (hpc : pc.isLocal = true) :
    step st (ins, pc) = after ins (localStep (st ins.pidx) pc ins.loc).1
      (localStep (st ins.pidx) pc ins.loc).2 := by
  cases pc <;> simp [PC.isLocal] at hpc <;>
  · simp only [step]
    generalize localStep (st ins.pidx) _ ins.loc = r
    obtain ⟨l, c⟩ := r
    cases c <;> rfl

theorem after_putLoc (ins : Ins π) (l l' : Loc π) (ctl : Ctl) :
    after (ins.putLoc l) l' ctl = after ins l' ctl := by
  cases ctl with
  | goto pc => simp only [after, putLoc_putLoc]
  | nextBegin => simp only [after, putLoc_putLoc]; rfl

theorem LReach.lift {st : Nat → Static π} {ins : Ins π} {pc : PC} {l l' : Loc π} {ctl : Ctl}
    (hk : 1 ≤ ins.pidx) (h : LReach (st ins.pidx) pc l l' ctl) (hl : ins.loc = l) :
    Reach st (ins, pc) (after ins l' ctl) := by
  generalize hs : st ins.pidx = s at h
  induction h generalizing ins with
  | one hpc hst =>
    apply Reach.step
    rw [step_local st ins _ hpc, hs, hl, hst]
  | @cons pc l l1 pc1 l' ctl hpc hst _ ih =>
    have h1 : Verif.Engine.step st (ins, pc) = (ins.putLoc l1, pc1) := by
      rw [step_local st ins _ hpc, hs, hl, hst]; rfl
    have h2 := ih (ins := ins.putLoc l1) hk (loc_putLoc ins l1 hk) hs
    rw [after_putLoc] at h2
    exact (Reach.step h1).trans h2

/-! ### Sums over the phases -/

/-- `f 1 + ... + f n` -/
def sumTo (f : Nat → Nat) : Nat → Nat
  | 0 => 0
  | n + 1 => sumTo f n + f (n + 1)

theorem sumTo_congr {f g : Nat → Nat} {n : Nat} (h : ∀ k, 1 ≤ k → k ≤ n → f k = g k) :
    sumTo f n = sumTo g n := by
  induction n with
  | zero => rfl
  | succ n ih =>
    simp only [sumTo]
    rw [ih (fun k h1 h2 => h k h1 (by omega)), h (n + 1) (by omega) (by omega)]

/-- Changing one summand. -/
theorem sumTo_one {f g : Nat → Nat} {n k : Nat} (hk : 1 ≤ k) (hkn : k ≤ n)
    (h : ∀ j, 1 ≤ j → j ≤ n → j ≠ k → f j = g j) : sumTo f n + g k = sumTo g n + f k := by
  induction n with
  | zero => omega
  | succ n ih =>
    simp only [sumTo]
    by_cases hkn' : k = n + 1
    · subst hkn'
      have := sumTo_congr (f := f) (g := g) (n := n) (fun j h1 h2 => h j h1 (by omega) (by omega))
      omega
    · have h1 := ih (by omega) (fun j h1 h2 h3 => h j h1 (by omega) h3)
      have h2 := h (n + 1) (by omega) (by omega) (by omega)
      omega

theorem sumTo_zero {f : Nat → Nat} {n : Nat} (h : ∀ k, 1 ≤ k → k ≤ n → f k = 0) : sumTo f n = 0 := by
  induction n with
  | zero => rfl
  | succ n ih => simp only [sumTo]; rw [ih (fun k h1 h2 => h k h1 (by omega)), h (n + 1) (by omega) (by omega)]

end Verif.Engine
