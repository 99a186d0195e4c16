import Verif.Spec.Inter
import Verif.Model.RangeTables
/-
Canonical ordering as in the Unicode standard (D109): every maximal run of characters of non-zero combining class is
sorted stably by class.
-/
namespace Verif.Spec

/-- Canonical combining class of a datum (0 for anything not listed). -/
def combining (d : Datum) : Nat := ((valueIn Range.cccTable d).getD 0).toNat

/-- A run of data sorted by class: class after class, each in the order of appearance. -/
def byClass (cls : Datum → Nat) (r : List Datum) : List Datum :=
  (List.range 256).flatMap fun c => r.filter fun d => cls d == c

/-- Runs of data of non-zero class sorted, given the run that is open. -/
def reorderFrom (cls : Datum → Nat) (run : List Datum) : List Datum → List Datum
  | [] => byClass cls run
  | d :: ds => if cls d = 0 then byClass cls run ++ d :: reorderFrom cls [] ds else reorderFrom cls (run ++ [d]) ds

/-- Canonical ordering. -/
def reorder (cls : Datum → Nat) (ds : List Datum) : List Datum := reorderFrom cls [] ds

/-- Each run is sorted, what is between the runs stays. -/
theorem reorder_run (cls : Datum → Nat) (r : List Datum) (hr : ∀ d ∈ r, cls d ≠ 0) (x : Datum) (hx : cls x = 0)
    (ds : List Datum) : reorder cls (r ++ x :: ds) = byClass cls r ++ x :: reorder cls ds := by
  have key : ∀ (o r : List Datum), (∀ d ∈ r, cls d ≠ 0) →
      reorderFrom cls o (r ++ x :: ds) = byClass cls (o ++ r) ++ x :: reorder cls ds := by
    intro o r hr
    induction r generalizing o with
    | nil => simp [reorderFrom, hx, reorder]
    | cons d r ih =>
      rw [List.cons_append, reorderFrom, if_neg (hr d (by simp)), ih (o ++ [d]) (fun a ha => hr a (by simp [ha]))]
      simp
  exact key [] r hr

theorem reorder_last (cls : Datum → Nat) (r : List Datum) (hr : ∀ d ∈ r, cls d ≠ 0) : reorder cls r = byClass cls r := by
  have key : ∀ (o r : List Datum), (∀ d ∈ r, cls d ≠ 0) → reorderFrom cls o r = byClass cls (o ++ r) := by
    intro o r hr
    induction r generalizing o with
    | nil => simp [reorderFrom]
    | cons d r ih =>
      rw [reorderFrom, if_neg (hr d (by simp)), ih (o ++ [d]) (fun a ha => hr a (by simp [ha]))]
      simp
  exact key [] r hr

/-- The classes in a sorted run do not decrease. -/
theorem byClass_sorted (cls : Datum → Nat) (r : List Datum) : (byClass cls r).Pairwise fun a b => cls a ≤ cls b := by
  have key : ∀ n, ((List.range n).flatMap fun c => r.filter fun d => cls d == c).Pairwise (fun a b => cls a ≤ cls b) ∧
      ∀ x ∈ (List.range n).flatMap fun c => r.filter fun d => cls d == c, cls x < n := by
    intro n
    induction n with
    | zero => simp
    | succ n ih =>
      rw [List.range_succ, List.flatMap_append]
      refine ⟨List.pairwise_append.2 ⟨ih.1, ?_, ?_⟩, ?_⟩
      · simp only [List.flatMap_cons, List.flatMap_nil, List.append_nil]
        refine List.pairwise_of_forall_mem_list ?_
        intro a ha b hb
        have := (List.mem_filter.1 ha).2; have := (List.mem_filter.1 hb).2
        simp at *; omega
      · intro a ha b hb
        have := ih.2 a ha
        simp only [List.flatMap_cons, List.flatMap_nil, List.append_nil, List.mem_filter, beq_iff_eq] at hb
        omega
      · intro x hx
        simp only [List.mem_append] at hx
        rcases hx with hx | hx
        · have := ih.2 x hx; omega
        · simp only [List.flatMap_cons, List.flatMap_nil, List.append_nil, List.mem_filter, beq_iff_eq] at hx
          omega
  exact (key 256).1

/-- Data of the same class keep their order (and none is lost or invented). -/
theorem byClass_stable (cls : Datum → Nat) (r : List Datum) (c : Nat) (hc : c < 256) :
    (byClass cls r).filter (fun d => cls d == c) = r.filter fun d => cls d == c := by
  have key : ∀ n, (((List.range n).flatMap fun c => r.filter fun d => cls d == c).filter fun d => cls d == c) =
      if c < n then r.filter (fun d => cls d == c) else [] := by
    intro n
    induction n with
    | zero => simp
    | succ n ih =>
      rw [List.range_succ, List.flatMap_append, List.filter_append, ih]
      simp only [List.flatMap_cons, List.flatMap_nil, List.append_nil, List.filter_filter]
      by_cases h1 : c < n
      · rw [if_pos h1, if_pos (by omega)]
        have : (r.filter fun a => (cls a == c) && (cls a == n)) = [] := by
          rw [List.filter_eq_nil_iff]; intro a _; simp; omega
        rw [this, List.append_nil]
      · rw [if_neg h1]
        by_cases h2 : c = n
        · subst h2; rw [if_pos (by omega)]; simp
        · rw [if_neg (by omega)]
          rw [List.nil_append, List.filter_eq_nil_iff]
          intro a _; simp; omega
  have := key 256
  rw [if_pos hc] at this
  exact this

end Verif.Spec
