import Verif.Spec.Normalize
import Verif.Proofs.EngineSession

/-! Tables whose patterns are single data: the phase replaces datum by datum. -/

namespace Verif.Spec

theorem lookup_miss {α β : Type} [DecidableEq α] {R : Rules α β} {p : List α} (h : ∀ r ∈ R, r.1 ≠ p) : lookup R p = none := by
  induction R with
  | nil => rfl
  | cons r R ih =>
    rw [lookup, if_neg (h r (by simp))]
    exact ih fun r hr => h r (by simp [hr])

theorem lookup_some {α β : Type} [DecidableEq α] {R : Rules α β} {p : List α} {b : β} (h : lookup R p = some b) : (p, b) ∈ R := by
  induction R with
  | nil => simp [lookup] at h
  | cons r R ih =>
    rw [lookup] at h
    split at h
    · rename_i e
      simp only [Option.some.injEq] at h
      subst e; subst h
      exact List.mem_cons_self
    · exact List.mem_cons_of_mem _ (ih h)

theorem lookup_append {α β : Type} [DecidableEq α] (A B : Rules α β) (p : List α) : lookup (A ++ B) p = (lookup A p).or (lookup B p) := by
  induction A with
  | nil => rfl
  | cons r A ih =>
    rw [List.cons_append, lookup, lookup]
    split
    · rfl
    · exact ih

/-- No rule that could apply at `d` looks further than `d`. -/
def OneAt (R : Rules Datum (List Datum)) (d : Datum) : Prop := ∀ r ∈ R, r.1.head? = some d → r.1 = [d]

theorem longest_one {R : Rules Datum (List Datum)} {d : Datum} (h : OneAt R d) (ds : List Datum) :
    longest R (d :: ds) = (lookup R [d]).map fun b => (1, b) := by
  have key : ∀ n, n ≤ ds.length → longestUpTo R (d :: ds) (n + 1) = (lookup R [d]).map fun b => (1, b) := by
    intro n
    induction n with
    | zero =>
      intro _
      simp only [longestUpTo, List.take_succ_cons, List.take_zero, Nat.zero_add]
      cases lookup R [d] <;> rfl
    | succ n ih =>
      intro hn
      cases hds : ds with
      | nil => rw [hds] at hn; simp at hn
      | cons x xs =>
        rw [longestUpTo, List.take_succ_cons, List.take_succ_cons, lookup_miss]
        · rw [hds] at ih; exact ih (by rw [hds] at hn; simp at hn ⊢; omega)
        · intro r hr e
          have := h r hr (by rw [e]; rfl)
          rw [this] at e
          simp at e
  exact key ds.length (Nat.le_refl _)

/-- A phase with such a table replaces each datum by itself. -/
theorem tokens_one {R : Rules Datum (List Datum)} : ∀ {ds : List Datum}, (∀ d ∈ ds, OneAt R d) →
    passMisses (tokens [R] ds) = expand (fun d => lookup R [d]) ds
  | [], _ => by rw [tokens]; rfl
  | d :: ds, h => by
    have ih := tokens_one (ds := ds) (fun x hx => h x (by simp [hx]))
    have e : firstMatch [R] (d :: ds) = (lookup R [d]).map fun b => (1, b) := by
      rw [firstMatch, longest_one (h d (by simp)) ds]
      cases lookup R [d] <;> rfl
    rw [tokens, e]
    cases hk : lookup R [d] with
    | none =>
      simp only [Option.map_none, passMisses, ih]
      simp [expand, hk]
    | some b =>
      simp only [Option.map_some, passMisses, Nat.sub_self, List.drop_zero, ih]
      simp [expand, hk]

end Verif.Spec

namespace Verif.Engine
open Verif.Spec

/-- A phase with a single table, whose patterns are single data where it matters. -/
theorem map_real {π : Type} {s : Static π} {R : Rules Datum (List Datum)} (hs : PhaseTables s (.rewrite [R])) (i : (Nat → π) → Prop) :
    Realises s i { out := fun ds => expand (fun d => lookup R [d]) (nonEmpty ds), ok := fun ds => ∀ d ∈ nonEmpty ds, OneAt R d } := by
  refine (table_realises hs i).as rfl (fun _ _ _ => trivial) ?_
  intro ds _ ho
  exact ⟨tokens_one ho, rfl, rfl, fun _ _ => trivial⟩

end Verif.Engine
