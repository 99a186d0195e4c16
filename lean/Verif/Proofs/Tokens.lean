import Verif.Spec.Tokens

/-! Helper lemmas about the token specification. -/

namespace Verif.Spec

section
variable {α β : Type} [DecidableEq α]

theorem lookup_mem {R : Rules α β} {p : List α} {b : β} (h : lookup R p = some b) : (p, b) ∈ R := by
  induction R with
  | nil => simp [lookup] at h
  | cons r rs ih =>
    simp only [lookup] at h
    split at h
    · rename_i hr; cases h; subst hr; simp
    · exact List.mem_cons_of_mem _ (ih h)

theorem lookup_none {R : Rules α β} {p : List α} : lookup R p = none ↔ ∀ r ∈ R, r.1 ≠ p := by
  induction R with
  | nil => simp [lookup]
  | cons r rs ih =>
    simp only [lookup]
    split
    · rename_i hr; simp [hr]
    · rename_i hr; simp [ih, hr]

theorem longestUpTo_take (R : Rules α β) (s : List α) (X : List α) (n : Nat) (hn : n ≤ s.length) :
    longestUpTo R (s ++ X) n = longestUpTo R s n := by
  induction n with
  | zero => rfl
  | succ n ih =>
    simp only [longestUpTo]
    rw [List.take_append_of_le_length hn, ih (by omega)]

theorem longestUpTo_some {R : Rules α β} {s : List α} {n m : Nat} {b : β}
    (h : longestUpTo R s n = some (m, b)) :
    1 ≤ m ∧ m ≤ n ∧ lookup R (s.take m) = some b ∧ ∀ k, m < k → k ≤ n → lookup R (s.take k) = none := by
  induction n with
  | zero => simp [longestUpTo] at h
  | succ n ih =>
    simp only [longestUpTo] at h
    split at h
    · rename_i b' hb
      cases h
      refine ⟨by omega, by omega, hb, ?_⟩
      intro k h1 h2; omega
    · rename_i hb
      obtain ⟨h1, h2, h3, h4⟩ := ih h
      refine ⟨h1, by omega, h3, ?_⟩
      intro k hk1 hk2
      by_cases hk : k = n + 1
      · subst hk; exact hb
      · exact h4 k hk1 (by omega)

theorem longestUpTo_none {R : Rules α β} {s : List α} {n : Nat} :
    longestUpTo R s n = none ↔ ∀ k, 1 ≤ k → k ≤ n → lookup R (s.take k) = none := by
  induction n with
  | zero => simp [longestUpTo]; omega
  | succ n ih =>
    simp only [longestUpTo]
    split
    · rename_i b' hb
      simp only [reduceCtorEq, false_iff]
      intro h
      have := h (n + 1) (by omega) (by omega)
      simp [hb] at this
    · rename_i hb
      rw [ih]
      constructor
      · intro h k h1 h2
        by_cases hk : k = n + 1
        · subst hk; exact hb
        · exact h k h1 (by omega)
      · intro h k h1 h2; exact h k h1 (by omega)

theorem longest_some {R : Rules α β} {s : List α} {m : Nat} {b : β}
    (h : longest R s = some (m, b)) :
    1 ≤ m ∧ m ≤ s.length ∧ lookup R (s.take m) = some b := by
  obtain ⟨h1, h2, h3, _⟩ := longestUpTo_some h
  exact ⟨h1, h2, h3⟩

/-- Extending by a stretch none of whose prefixes completes a pattern does not change the match. -/
theorem longest_append {R : Rules α β} {u Y : List α}
    (h : ∀ k, u.length < k → k ≤ (u ++ Y).length → lookup R ((u ++ Y).take k) = none) :
    longest R (u ++ Y) = longest R u := by
  unfold longest
  have : ∀ n, u.length ≤ n → n ≤ (u ++ Y).length →
      longestUpTo R (u ++ Y) n = longestUpTo R (u ++ Y) u.length := by
    intro n hn
    induction n with
    | zero => intro _; have : u.length = 0 := by omega
              rw [this]
    | succ n ih =>
      intro h2
      by_cases hk : u.length = n + 1
      · rw [hk]
      · simp only [longestUpTo]
        rw [h (n + 1) (by omega) h2]
        exact ih (by omega) (by omega)
  rw [this _ (by simp) (Nat.le_refl _), longestUpTo_take _ _ _ _ (Nat.le_refl _)]

theorem longest_append_of_dead {R : Rules α β} {u Y : List α} {a : α}
    (h : ∀ r ∈ R, ¬ (u ++ [a]) <+: r.1) :
    longest R (u ++ a :: Y) = longest R u := by
  apply longest_append
  intro k h1 h2
  rw [lookup_none]
  intro r hr he
  apply h r hr
  rw [he]
  have : (u ++ a :: Y).take k = (u ++ [a]) ++ Y.take (k - (u.length + 1)) := by
    rw [show u ++ a :: Y = (u ++ [a]) ++ Y by simp, List.take_append]
    congr 1
    · rw [List.take_of_length_le]; simp; omega
    · congr 1; simp
  rw [this]
  exact List.prefix_append _ _

/-- A text that no pattern properly extends has its match decided. -/
theorem longest_append_of_closed {R : Rules α β} {u Y : List α}
    (h : ∀ r ∈ R, u <+: r.1 → r.1 = u) :
    longest R (u ++ Y) = longest R u := by
  apply longest_append
  intro k h1 h2
  rw [lookup_none]
  intro r hr he
  have hp : u <+: r.1 := by
    rw [he, List.take_append]
    rw [List.take_of_length_le (by omega)]
    exact List.prefix_append _ _
  have := h r hr hp
  rw [this] at he
  have hl := congrArg List.length he
  simp at hl h2
  omega

theorem longest_snoc (R : Rules α β) (u : List α) (a : α) :
    longest R (u ++ [a]) = (match lookup R (u ++ [a]) with
      | some b => some (u.length + 1, b)
      | none => longest R u) := by
  unfold longest
  simp only [List.length_append, List.length_cons, List.length_nil, Nat.zero_add, longestUpTo]
  rw [List.take_of_length_le (by simp), longestUpTo_take _ _ _ _ (Nat.le_refl _)]
  cases lookup R (u ++ [a]) <;> rfl

@[simp] theorem longest_nil (R : Rules α β) : longest R [] = none := rfl

theorem firstMatch_none {Rs : List (Rules α β)} {s : List α}
    (h : ∀ R ∈ Rs, longest R s = none) : firstMatch Rs s = none := by
  induction Rs with
  | nil => rfl
  | cons R rs ih =>
    simp only [firstMatch]
    rw [h R (by simp)]
    exact ih (fun R hR => h R (List.mem_cons_of_mem _ hR))

theorem firstMatch_some {Rs : List (Rules α β)} {s : List α} {j : Nat} {r : Nat × β} (hj : j < Rs.length)
    (h : ∀ i (hi : i < j), longest (Rs[i]'(by omega)) s = none) (hr : longest Rs[j] s = some r) :
    firstMatch Rs s = some r := by
  induction Rs generalizing j with
  | nil => simp at hj
  | cons R rs ih =>
    simp only [firstMatch]
    cases j with
    | zero => simp at hr; rw [hr]
    | succ j =>
      have := h 0 (by omega)
      simp at this
      rw [this]
      simp at hj
      exact ih hj (fun i hi => by have := h (i+1) (by omega); simpa using this) (by simpa using hr)

@[simp] theorem tokens_nil (Rs : List (Rules α β)) : tokens Rs [] = [] := by
  rw [tokens]

theorem firstMatch_pos {Rs : List (Rules α β)} {s : List α} {n : Nat} {b : β}
    (h : firstMatch Rs s = some (n, b)) : 1 ≤ n ∧ n ≤ s.length := by
  induction Rs with
  | nil => simp [firstMatch] at h
  | cons R rs ih =>
    simp only [firstMatch] at h
    split at h
    · rename_i r hr; cases h; have := longest_some hr; exact ⟨this.1, this.2.1⟩
    · exact ih h

theorem tokens_hit {Rs : List (Rules α β)} {s : List α} {n : Nat} {b : β}
    (h : firstMatch Rs s = some (n, b)) : tokens Rs s = .hit b :: tokens Rs (s.drop n) := by
  obtain ⟨h1, h2⟩ := firstMatch_pos h
  cases s with
  | nil => simp at h2; omega
  | cons a t =>
    rw [tokens, h]
    obtain ⟨m, rfl⟩ : ∃ m, n = m + 1 := ⟨n - 1, by omega⟩
    simp

theorem tokens_miss {Rs : List (Rules α β)} {a : α} {t : List α}
    (h : firstMatch Rs (a :: t) = none) : tokens Rs (a :: t) = .miss a :: tokens Rs t := by
  rw [tokens, h]

end
end Verif.Spec
