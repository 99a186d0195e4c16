import Verif.Model.Conv
/-
Facts about tokenising and joining C strings.
-/
namespace Verif

/-- Structural version of `tokens`. -/
def splitC (d : Char) : Str → List Str
  | [] => [[]]
  | c :: cs =>
    if c = d then [] :: splitC d cs
    else match splitC d cs with
      | t :: ts => (c :: t) :: ts
      | [] => [[c]]

theorem splitC_cons (d c : Char) (cs : Str) : splitC d (c :: cs) =
    if c = d then [] :: splitC d cs
    else match splitC d cs with
      | t :: ts => (c :: t) :: ts
      | [] => [[c]] := rfl

theorem splitC_ne (d : Char) : ∀ s, splitC d s ≠ []
  | [] => by simp [splitC]
  | c :: cs => by
    unfold splitC
    split
    · simp
    · split <;> simp

theorem splitC_strsep (d : Char) : ∀ s : Str, splitC d s =
    match strsep d s with
    | (t, none) => [t]
    | (t, some r) => t :: splitC d r
  | [] => by simp [splitC, strsep]
  | c :: cs => by
    have ih := splitC_strsep d cs
    rw [splitC_cons]
    unfold strsep
    split
    · rfl
    · rw [ih]
      cases h : strsep d cs with
      | mk t r => cases r <;> rfl

theorem tokens_eq (d : Char) (s : Str) : tokens d s = splitC d s := by
  induction hn : s.length using Nat.strongRecOn generalizing s with
  | ind n ih =>
    rw [tokens, splitC_strsep]
    split
    · rename_i t h; rw [h]
    · rename_i t r h
      rw [h]
      simp only
      rw [ih r.length (by rw [← hn]; exact strsep_lt d s _ _ h) r rfl]

open Verif.Conv (joinWith)

theorem joinWith_cons (d : Char) (t : Str) (ts : List Str) (h : ts ≠ []) :
    joinWith d (t :: ts) = t ++ d :: joinWith d ts := by
  cases ts with
  | nil => exact absurd rfl h
  | cons a as => rfl

theorem join_split (d : Char) : ∀ s : Str, joinWith d (splitC d s) = s
  | [] => rfl
  | c :: cs => by
    have ih := join_split d cs
    unfold splitC
    split
    · rw [joinWith_cons _ _ _ (splitC_ne d cs), ih]; subst_vars; rfl
    · cases h : splitC d cs with
      | nil => exact absurd h (splitC_ne d cs)
      | cons t ts =>
        simp only
        rw [h] at ih
        cases ts with
        | nil => simp only [joinWith] at ih ⊢; rw [ih]
        | cons a as =>
          rw [joinWith_cons _ _ _ (by simp)] at ih ⊢
          rw [← ih]; rfl

theorem split_free (d : Char) : ∀ (t : Str), d ∉ t → splitC d t = [t]
  | [], _ => rfl
  | c :: cs, h => by
    simp only [List.mem_cons, not_or] at h
    unfold splitC
    rw [if_neg (fun e => h.1 e.symm), split_free d cs h.2]

theorem split_append (d : Char) : ∀ (t s : Str), d ∉ t → splitC d (t ++ d :: s) = t :: splitC d s
  | [], s, _ => by simp [splitC]
  | c :: cs, s, h => by
    simp only [List.mem_cons, not_or] at h
    rw [List.cons_append, splitC_cons]
    rw [if_neg (fun e => h.1 e.symm), split_append d cs s h.2]

theorem split_join (d : Char) : ∀ (ts : List Str), ts ≠ [] → (∀ t ∈ ts, d ∉ t) →
    splitC d (joinWith d ts) = ts
  | [], h, _ => absurd rfl h
  | [t], _, h => split_free d t (h t (by simp))
  | t :: a :: as, _, h => by
    rw [joinWith_cons _ _ _ (by simp), split_append d t _ (h t (by simp)),
      split_join d (a :: as) (by simp) (fun x hx => h x (List.mem_cons_of_mem _ hx))]

theorem split_mem_free (d : Char) : ∀ (s : Str), ∀ t ∈ splitC d s, d ∉ t
  | [], t, h => by simp [splitC] at h; simp [h]
  | c :: cs, t, h => by
    have ih := split_mem_free d cs
    unfold splitC at h
    split at h
    · rcases List.mem_cons.1 h with rfl | h
      · simp
      · exact ih t h
    · rename_i hc
      cases hs : splitC d cs with
      | nil => exact absurd hs (splitC_ne d cs)
      | cons a as =>
        rw [hs] at h ih
        rcases List.mem_cons.1 h with rfl | h
        · simp only [List.mem_cons, not_or]
          exact ⟨fun e => hc e.symm, ih a (by simp)⟩
        · exact ih t (by simp [h])

/-- Characters of the tokens come from the string. -/
theorem split_mem_sub (d : Char) : ∀ (s : Str), ∀ t ∈ splitC d s, ∀ c ∈ t, c ∈ s
  | [], t, h, c, hc => by simp [splitC] at h; subst h; exact hc
  | x :: xs, t, h, c, hc => by
    have ih := split_mem_sub d xs
    unfold splitC at h
    split at h
    · rcases List.mem_cons.1 h with rfl | h
      · simp at hc
      · exact List.mem_cons_of_mem _ (ih t h c hc)
    · cases hs : splitC d xs with
      | nil => exact absurd hs (splitC_ne d xs)
      | cons a as =>
        rw [hs] at h ih
        rcases List.mem_cons.1 h with rfl | h
        · rcases List.mem_cons.1 hc with rfl | hc
          · simp
          · exact List.mem_cons_of_mem _ (ih a (by simp) c hc)
        · exact List.mem_cons_of_mem _ (ih t (by simp [h]) c hc)

theorem split_length (d : Char) : ∀ (s : Str), (splitC d s).length = (s.filter (· = d)).length + 1
  | [] => rfl
  | c :: cs => by
    have ih := split_length d cs
    unfold splitC
    split
    · rename_i h; simp [h, ih]
    · rename_i h
      cases hs : splitC d cs with
      | nil => exact absurd hs (splitC_ne d cs)
      | cons a as => rw [hs] at ih; simp [h] at ih ⊢; exact ih

theorem strchr_none {d : Char} : ∀ {s : Str}, strchr d s = none ↔ d ∉ s
  | [] => by simp [strchr]
  | c :: cs => by
    unfold strchr
    by_cases h : c = d
    · simp [h]
    · have h' : ¬ d = c := fun e => h e.symm
      simp [h, h', strchr_none (s := cs)]

theorem strchr_some {d : Char} : ∀ {s a b : Str}, strchr d s = some (a, b) → s = a ++ d :: b ∧ d ∉ a
  | [], a, b, h => by simp [strchr] at h
  | c :: cs, a, b, h => by
    unfold strchr at h
    split at h
    · cases h; subst_vars; simp
    · rename_i hc
      cases hs : strchr d cs with
      | none => rw [hs] at h; simp at h
      | some p =>
        rw [hs] at h
        obtain ⟨a', b'⟩ := p
        simp only [Option.map_some, Option.some.injEq, Prod.mk.injEq] at h
        obtain ⟨rfl, rfl⟩ := h
        have := strchr_some hs
        constructor
        · rw [this.1]; rfl
        · simp only [List.mem_cons, not_or]; exact ⟨fun e => hc e.symm, this.2⟩

theorem strchr_append {d : Char} {a : Str} (b : Str) (h : d ∉ a) : strchr d (a ++ d :: b) = some (a, b) := by
  induction a with
  | nil => simp [strchr]
  | cons c cs ih =>
    simp only [List.mem_cons, not_or] at h
    simp only [List.cons_append, strchr]
    rw [if_neg (fun e => h.1 e.symm), ih h.2]
    rfl
end Verif
