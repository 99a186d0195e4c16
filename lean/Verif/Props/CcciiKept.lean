import Verif.Props.CcciiShape
/-
C106: every character that is read from CCCII has a code.
-/
namespace Verif.Props.Cccii
open Verif.Spec Verif.Cccii

/-- The values `vs` are keys. -/
noncomputable def hasRun (t : CTree) (vs : List Nat) : Bool :=
  List.rec (motive := fun _ => Bool) true (fun v _ ih => pick2 (Nat.beq (t.get v) 0) false ih) vs

theorem hasRun_all {t : CTree} : ∀ {k : Nat} {vs : List Nat}, hasRun t vs = true → ∀ r ∈ Chart.run k vs, t.get r.2 ≠ 0
  | _, [], _, r, hr => by simp [Chart.run] at hr
  | k, v :: vs, h, r, hr => by
    have h : pick2 (Nat.beq (t.get v) 0) false (hasRun t vs) = true := h
    rw [pick2_eq] at h
    rw [Chart.run, List.mem_cons] at hr
    cases h1 : Nat.beq (t.get v) 0 with
    | true => rw [h1] at h; simp at h
    | false =>
      rw [h1, cond_false] at h
      rcases hr with rfl | hr
      · intro h0
        rw [h0] at h1
        simp at h1
      · exact hasRun_all h r hr

theorem kept_ok : (fun t => allRuns (fun r => hasRun t r.2) reads) (CTree.build 12 writes) = true := by decide +kernel

theorem kept_mem {c u : Nat} (hc : (c, u) ∈ reads.pairs) : ∃ c', (u, c') ∈ writes.pairs := by
  obtain ⟨q, hq, hr⟩ := List.mem_flatMap.1 hc
  have key : hasRun (CTree.build 12 writes) q.2 = true := allRuns_mem (f := fun r => hasRun (CTree.build 12 writes) r.2) kept_ok q hq
  exact ⟨_, build_mem (hasRun_all key _ hr) rfl⟩

end Verif.Props.Cccii
