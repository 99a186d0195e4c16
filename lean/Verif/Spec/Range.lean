import Verif.Model.Range
/-
Specification of interval tables: a row contains the numbers from its first to its last.
-/
namespace Verif.Spec
open Verif.Range (Row)

/-- `u` lies in row `r`. -/
def In (u : Nat) (r : Row) : Prop := r.beg ≤ u ∧ u ≤ r.last

instance (u : Nat) (r : Row) : Decidable (In u r) := inferInstanceAs (Decidable (_ ∧ _))

/-- Rows in increasing order, not overlapping. -/
def Ordered (t : List Row) : Prop := (∀ r ∈ t, r.beg ≤ r.last) ∧ t.Pairwise fun a b => a.last < b.beg

/-- Same as a test that looks at neighbours only. -/
def ordered : List Row → Bool
  | [] => true
  | r :: rs => decide (r.beg ≤ r.last) && (match rs with | [] => true | s :: _ => decide (r.last < s.beg)) && ordered rs

theorem ordered_sound : ∀ t, ordered t = true → Ordered t
  | [], _ => ⟨by simp, List.Pairwise.nil⟩
  | r :: rs, h => by
    simp only [ordered, Bool.and_eq_true, decide_eq_true_eq] at h
    obtain ⟨⟨h1, h2⟩, h3⟩ := h
    obtain ⟨i1, i2⟩ := ordered_sound rs h3
    refine ⟨by simpa [h1] using i1, List.Pairwise.cons ?_ i2⟩
    cases rs with
    | nil => simp
    | cons s ss =>
      simp only [decide_eq_true_eq] at h2
      intro b hb
      rcases List.mem_cons.1 hb with rfl | hb
      · exact h2
      · have := (List.pairwise_cons.1 i2).1 b hb
        have := i1 s (by simp)
        omega

end Verif.Spec
