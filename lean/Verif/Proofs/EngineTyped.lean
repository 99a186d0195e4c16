import Verif.Proofs.EngineLift
import Verif.Model.Output

/-! Every phase type is run by its own branch; the length field of sentinels is only touched by FROM. -/

namespace Verif.Engine

variable {π : Type}

/-- The callbacks of a phase leave the length field of the list sentinels alone. -/
def KeepsSentinels (s : Static π) : Prop :=
  ∀ j l, ((s.codecs j).conv l).ph.consumed = l.ph.consumed ∧
    ((s.codecs j).conv l).prevHeadLen = l.prevHeadLen ∧
    ∀ f, (s.codecs j).flush = some f → (f l).ph.consumed = l.ph.consumed ∧ (f l).prevHeadLen = l.prevHeadLen

theorem scan_consumed (s : Static π) (d : List Nat) (p : Ph π) : (p.scan s d).2.consumed = p.consumed := by
  induction d generalizing p with
  | nil => rfl
  | cons c cs ih =>
    simp only [Ph.scan]
    split <;> first | rfl | (rw [ih]; rfl)

theorem local_consumed (s : Static π) (hk : KeepsSentinels s) (pc : PC) (l : Loc π) :
    ((localStep s pc l).1.prevHeadLen = l.prevHeadLen) ∧
    (pc ∉ [PC.fromOuter, PC.fromInner, PC.fromSw, PC.fromDead] →
      (localStep s pc l).1.ph.consumed = l.ph.consumed) := by
  have hem : ∀ (l : Loc π) (b : Bool), (emitMatch s l b).prevHeadLen = l.prevHeadLen ∧
      (emitMatch s l b).ph.consumed = l.ph.consumed := by
    intro l b
    unfold emitMatch
    by_cases hmd : l.ph.matchData = []
    · rw [if_neg (by simpa using hmd)]
      cases hf : (s.codec l.ph).flush with
      | none => exact ⟨rfl, rfl⟩
      | some f =>
        have := (hk l.ph.index l).2.2 f hf
        exact ⟨this.2, this.1⟩
    · rw [if_pos hmd]; exact ⟨rfl, rfl⟩
  have hconv : ((s.codec l.ph).conv l).ph.consumed = l.ph.consumed ∧
      ((s.codec l.ph).conv l).prevHeadLen = l.prevHeadLen := ⟨(hk _ l).1, (hk _ l).2.1⟩
  have hsep : ∀ (l : Loc π) a b, (itSep s l a b).1.prevHeadLen = l.prevHeadLen ∧
      (itSep s l a b).1.ph.consumed = l.ph.consumed := fun l a b => ⟨rfl, rfl⟩
  have hsub : (itSubmatch s l).prevHeadLen = l.prevHeadLen ∧ (itSubmatch s l).ph.consumed = l.ph.consumed := by
    unfold itSubmatch; simp only []; split <;> exact ⟨rfl, rfl⟩
  cases pc <;> simp only [localStep]
  case fromOuter => unfold fromOuter; split <;> exact ⟨rfl, fun h => absurd (by simp) h⟩
  case fromInner =>
    unfold fromInner
    repeat' split
    all_goals exact ⟨rfl, fun h => absurd (by simp) h⟩
  case fromSw =>
    unfold fromSw
    split
    all_goals first
      | exact ⟨rfl, fun h => absurd (by simp) h⟩
      | exact ⟨hconv.2, fun h => absurd (by simp) h⟩
  case fromDead =>
    unfold fromDead
    simp only []
    split
    · exact ⟨(hem _ _).1, fun h => absurd (by simp) h⟩
    · split <;> exact ⟨rfl, fun h => absurd (by simp) h⟩
  case interOuter =>
    unfold itOuter; split
    · exact ⟨rfl, fun _ => scan_consumed s _ _⟩
    · exact ⟨rfl, fun _ => rfl⟩
  case toOuter =>
    unfold itOuter; split
    · exact ⟨rfl, fun _ => scan_consumed s _ _⟩
    · exact ⟨rfl, fun _ => rfl⟩
  case interSw =>
    unfold interSw
    split
    all_goals first
      | exact ⟨rfl, fun _ => rfl⟩
      | exact ⟨hconv.2, fun _ => hconv.1⟩
      | exact ⟨hsub.1, fun _ => hsub.2⟩
  case toSw =>
    unfold toSw
    split
    all_goals first
      | exact ⟨rfl, fun _ => rfl⟩
      | exact ⟨hconv.2, fun _ => hconv.1⟩
      | exact ⟨hsub.1, fun _ => hsub.2⟩
  case interDead =>
    unfold interDead
    simp only []
    split
    · exact ⟨(hem _ _).1, fun _ => (hem _ _).2⟩
    · split
      · exact ⟨rfl, fun _ => rfl⟩
      · split <;> exact ⟨rfl, fun _ => rfl⟩
  case toDead =>
    unfold toDead
    simp only []
    split
    · exact ⟨(hem _ _).1, fun _ => (hem _ _).2⟩
    · split <;> exact ⟨rfl, fun _ => rfl⟩
  all_goals exact ⟨trivial, fun _ => trivial⟩

/-- Program points of the right branch for the current phase. -/
def TypedPC (st : Nat → Static π) (c : Ins π × PC) : Prop :=
  (c.2 ∈ [PC.fromOuter, PC.fromInner, PC.fromSw, PC.fromDead] → (st c.1.pidx).type = .from_) ∧
  (c.2 ∈ [PC.interOuter, PC.interSw, PC.interDead] → (st c.1.pidx).type = .inter) ∧
  (c.2 ∈ [PC.toOuter, PC.toSw, PC.toDead] → (st c.1.pidx).type = .to_)

theorem typed_step (st : Nat → Static π) (c : Ins π × PC) (h : TypedPC st c) : TypedPC st (step st c) := by
  obtain ⟨ins, pc⟩ := c
  obtain ⟨h1, h2, h3⟩ := h
  cases pc
  case begin =>
    simp only [step]
    split
    · cases ht : (st ins.pidx).type <;> simp [TypedPC, PType.outer, ht]
    · simp [TypedPC]
  case leave => simp [TypedPC, step]
  case checkBack => simp only [step]; split <;> simp [TypedPC]
  case flushScan =>
    simp only [step]
    split
    · split
      · rename_i k _
        cases ht : (st k).type <;> simp [TypedPC, PType.dead, ht]
      · simp [TypedPC]
    · simp [TypedPC]
  case done => simp [TypedPC, step]
  case ub => simp [TypedPC, step]
  all_goals
    rw [step_local _ _ _ rfl]
    simp only [localStep]
  case fromOuter =>
    have h1 := h1 (by simp)
    unfold fromOuter; split <;> simp [TypedPC, after, Ins.putLoc, h1]
  case fromInner =>
    have h1 := h1 (by simp)
    unfold fromInner; repeat' split
    all_goals simp [TypedPC, after, Ins.putLoc, h1]
  case fromSw =>
    have h1 := h1 (by simp)
    unfold fromSw; split <;> simp [TypedPC, after, Ins.putLoc, h1]
  case fromDead =>
    have h1 := h1 (by simp)
    unfold fromDead; simp only []; repeat' split
    all_goals simp [TypedPC, after, Ins.putLoc, h1]
  case interOuter =>
    have h2 := h2 (by simp)
    unfold itOuter; repeat' split
    all_goals simp [TypedPC, after, Ins.putLoc, h2]
    all_goals split <;> simp
  case interSw =>
    have h2 := h2 (by simp)
    unfold interSw; split <;> simp [TypedPC, after, Ins.putLoc, h2, itSep]
    all_goals split <;> simp
  case interDead =>
    have h2 := h2 (by simp)
    unfold interDead; simp only []; repeat' split
    all_goals simp [TypedPC, after, Ins.putLoc, h2]
  case toOuter =>
    have h3 := h3 (by simp)
    unfold itOuter; repeat' split
    all_goals simp [TypedPC, after, Ins.putLoc, h3]
    all_goals split <;> simp
  case toSw =>
    have h3 := h3 (by simp)
    unfold toSw; split <;> simp [TypedPC, after, Ins.putLoc, h3, itSep]
    all_goals split <;> simp
  case toDead =>
    have h3 := h3 (by simp)
    unfold toDead; simp only []; repeat' split
    all_goals simp [TypedPC, after, Ins.putLoc, h3]


/-- Outside decoding phases the sentinel's length field never changes. -/
theorem run_sentinel (st : Nat → Static π) (hk : ∀ k, KeepsSentinels (st k)) (k : Nat)
    (ht : (st k).type ≠ .from_) (m : Nat) (c : Ins π × PC) (h : TypedPC st c) :
    ((run st m c).1.ph k).consumed = (c.1.ph k).consumed := by
  induction m generalizing c with
  | zero => rfl
  | succ m ih =>
    simp only [run]
    rw [ih _ (typed_step st c h)]
    obtain ⟨ins, pc⟩ := c
    have hl : pc.isLocal = true → ((step st (ins, pc)).1.ph k).consumed = (ins.ph k).consumed := by
      intro hp
      rw [step_local st ins pc hp]
      obtain ⟨a1, a2⟩ := local_consumed (st ins.pidx) (hk _) pc ins.loc
      have key : ((ins.putLoc (localStep (st ins.pidx) pc ins.loc).1).ph k).consumed = (ins.ph k).consumed := by
        simp only [Ins.putLoc]
        split
        · rename_i hkp
          rw [a2 ?_, hkp]; rfl
          intro hmem
          exact ht (by rw [hkp]; exact h.1 hmem)
        · split
          · rename_i hkp
            show (localStep (st ins.pidx) pc ins.loc).1.prevHeadLen = _
            rw [a1]
            simp only [Ins.loc]
            rw [← hkp, Nat.add_sub_cancel]
          · rfl
      cases (localStep (st ins.pidx) pc ins.loc).2 <;> exact key
    cases pc
    case begin => simp only [step]; split <;> rfl
    case leave => rfl
    case checkBack => simp only [step]; split <;> rfl
    case flushScan => simp only [step]; repeat' split
                      all_goals rfl
    case done => rfl
    case ub => rfl
    all_goals exact hl rfl

end Verif.Engine
