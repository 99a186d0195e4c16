import Verif.Model.Counter
import Verif.Spec.Counter
namespace Verif.Counter
open Verif.Spec

theorem upperC_eq (c : Char) : upperC c = c.toUpper := by
  unfold upperC Char.toUpper
  have e1 : ('a').toNat = 97 := rfl
  have e2 : ('z').toNat = 122 := rfl
  have e3 : ('A').toNat = 65 := rfl
  have hv : c.toNat = c.val.toNat := rfl
  by_cases h : 97 ≤ c.val.toNat ∧ c.val.toNat ≤ 122
  · have h1 : 'a'.val ≤ c.val ∧ c.val ≤ 'z'.val := by
      constructor
      · exact UInt32.le_iff_toNat_le.2 h.1
      · exact UInt32.le_iff_toNat_le.2 h.2
    rw [if_pos (by rw [e1, e2, hv]; exact h), dif_pos h1, e1, e3, hv]
    apply Char.ext
    have hlt : c.val.toNat - 97 + 65 < 1000 := by omega
    rw [show Char.ofNat (c.val.toNat - 97 + 65) = Char.ofNatAux (c.val.toNat - 97 + 65) (by left; omega) from by
      unfold Char.ofNat; rw [dif_pos]]
    apply UInt32.toNat.inj
    simp [Char.ofNatAux, UInt32.toNat_add]
    omega
  · have h1 : ¬ ('a'.val ≤ c.val ∧ c.val ≤ 'z'.val) := by
      rintro ⟨a, b⟩
      exact h ⟨UInt32.le_iff_toNat_le.1 a, UInt32.le_iff_toNat_le.1 b⟩
    rw [if_neg (by rw [e1, e2, hv]; exact h), dif_neg h1]

theorem strtoupper_eq (k : Str) : strtoupper k = canon k := by
  unfold strtoupper canon
  exact List.map_congr_left fun c _ => upperC_eq c

/-- The keys, in order. -/
def keys (s : State) : List Str := s.map (·.1)

theorem find_keys (k : Str) : ∀ s : State,
    (k ∈ keys s → (find k s).1 = s) ∧ (k ∉ keys s → (find k s).1 = s ++ [(k, 0)])
  | [] => by simp [find, keys]
  | e :: es => by
    have ih := find_keys k es
    unfold find
    by_cases h : e.1 = k
    · simp [h, keys]
    · have h' : ¬ k = e.1 := fun x => h x.symm
      simp only [h, if_false, keys, List.map_cons, List.mem_cons, h', false_or]
      exact ⟨fun hm => by rw [ih.1 hm], fun hm => by rw [ih.2 hm]; rfl⟩

theorem find_idx (k : Str) : ∀ s : State, (find k s).2 < (find k s).1.length ∧
    ∃ v, (find k s).1[(find k s).2]? = some (k, v)
  | [] => by simp [find]
  | e :: es => by
    have ih := find_idx k es
    unfold find
    by_cases h : e.1 = k
    · rw [if_pos h]; exact ⟨by simp, e.2, by simp [← h]⟩
    · rw [if_neg h]; simpa using ih

theorem nodup_unique {s : State} (h : (keys s).Nodup) {i j : Nat} {k : Str} {v w : Nat}
    (hi : s[i]? = some (k, v)) (hj : s[j]? = some (k, w)) : i = j := by
  have hi' : (keys s)[i]? = some k := by simp [keys, hi]
  have hj' : (keys s)[j]? = some k := by simp [keys, hj]
  have hlt : i < (keys s).length := (List.getElem?_eq_some_iff.1 hi').1
  exact (List.getElem?_inj hlt h).1 (by rw [hi', hj'])

theorem find_prefix (k : Str) (s : State) : keys s <+: keys (find k s).1 := by
  by_cases h : k ∈ keys s
  · rw [(find_keys k s).1 h]
    exact List.prefix_refl _
  · rw [(find_keys k s).2 h]; simp [keys]

theorem find_nodup (k : Str) (s : State) (h : (keys s).Nodup) : (keys (find k s).1).Nodup := by
  by_cases hm : k ∈ keys s
  · rw [(find_keys k s).1 hm]; exact h
  · rw [(find_keys k s).2 hm]
    simp only [keys, List.map_append, List.map_cons, List.map_nil]
    rw [List.nodup_append]
    refine ⟨h, by simp, ?_⟩
    intro a ha b hb
    simp at hb; subst hb
    intro hab; subst hab; exact hm ha

theorem keys_store (s : State) (p v : Nat) : keys (store s p v) = keys s := by
  unfold keys store
  apply List.ext_getElem?
  intro i
  simp only [List.getElem?_map, List.getElem?_modify]
  cases s[i]? <;> simp
  split <;> rfl

theorem keys_resetAll (s : State) : keys (s.map fun e => (e.1, 0)) = keys s := by
  simp [keys, Function.comp_def]

theorem step_keys (s : State) (o : Op) :
    keys s <+: keys (step s o) ∧ ((keys s).Nodup → (keys (step s o)).Nodup) := by
  cases o with
  | get k => exact ⟨find_prefix _ s, find_nodup _ s⟩
  | set k v =>
    simp only [step, keys_store]
    exact ⟨find_prefix _ s, find_nodup _ s⟩
  | put p v => simp [step, keys_store]
  | reset k =>
    cases k with
    | none => simp only [step, reset, keys_resetAll]; exact ⟨List.prefix_refl _, id⟩
    | some k =>
      simp only [step, reset, keys_store]
      exact ⟨find_prefix _ s, find_nodup _ s⟩

theorem run_keys (ops : List Op) : ∀ s : State,
    keys s <+: keys (run s ops) ∧ ((keys s).Nodup → (keys (run s ops)).Nodup) := by
  induction ops with
  | nil => intro s; exact ⟨List.prefix_refl _, id⟩
  | cons o os ih =>
    intro s
    have h1 := step_keys s o
    have h2 := ih (step s o)
    exact ⟨h1.1.trans h2.1, fun h => h2.2 (h1.2 h)⟩

/-- Value of a canonical name; 0 when the name has no cell. -/
def value (s : State) (n : Str) : Nat :=
  match load (find n s).1 (find n s).2 with
  | some v => v
  | none => 0

theorem value_of_mem {s : State} (h : (keys s).Nodup) {i : Nat} {n : Str} {v : Nat}
    (hi : s[i]? = some (n, v)) : value s n = v ∧ (find n s).2 = i := by
  have hm : n ∈ keys s := by
    have := List.mem_of_getElem? hi
    exact List.mem_map.2 ⟨_, this, rfl⟩
  obtain ⟨_, w, hw⟩ := find_idx n s
  rw [(find_keys n s).1 hm] at hw
  have hij := nodup_unique h hi hw
  unfold value load
  rw [(find_keys n s).1 hm, ← hij, hi]
  simp

theorem value_of_not_mem {s : State} {n : Str} (hn : n ∉ keys s) : value s n = 0 := by
  obtain ⟨hlt, w, hw⟩ := find_idx n s
  unfold value load
  rw [hw]
  rw [(find_keys n s).2 hn] at hw
  have : (n, w) ∈ s ++ [(n, 0)] := List.mem_of_getElem? hw
  simp only [List.mem_append, List.mem_singleton, Prod.mk.injEq, true_and] at this
  rcases this with h | h
  · exact absurd (List.mem_map.2 ⟨_, h, rfl⟩) hn
  · simp [h]

theorem mem_keys_iff {s : State} {n : Str} : n ∈ keys s ↔ ∃ (i : Nat) (v : Nat), s[i]? = some (n, v) := by
  constructor
  · intro h
    obtain ⟨e, he, rfl⟩ := List.mem_map.1 h
    obtain ⟨i, hi⟩ := List.mem_iff_getElem?.1 he
    exact ⟨i, e.2, by simpa using hi⟩
  · rintro ⟨i, v, h⟩
    exact List.mem_map.2 ⟨_, List.mem_of_getElem? h, rfl⟩

/-- States with the same cells give the same values. -/
theorem value_find {s : State} (h : (keys s).Nodup) (k n : Str) : value (find k s).1 n = value s n := by
  by_cases hm : k ∈ keys s
  · rw [(find_keys k s).1 hm]
  · have hnd := find_nodup k s h
    by_cases hn : n ∈ keys s
    · obtain ⟨i, v, hi⟩ := mem_keys_iff.1 hn
      rw [(value_of_mem h hi).1]
      apply (value_of_mem hnd (i := i) _).1
      rw [(find_keys k s).2 hm, List.getElem?_append_left (List.getElem?_eq_some_iff.1 hi).1, hi]
    · rw [value_of_not_mem hn]
      by_cases hkn : n = k
      · subst hkn
        apply (value_of_mem hnd (i := s.length) _).1
        rw [(find_keys n s).2 hm]; simp
      · apply value_of_not_mem
        rw [(find_keys k s).2 hm]
        simp only [keys, List.map_append, List.mem_append, List.map_cons, List.map_nil, List.mem_singleton]
        rintro (x | x)
        · exact hn x
        · exact hkn x

theorem value_store {s : State} (h : (keys s).Nodup) (k : Str) (x : Nat) (n : Str) :
    value (store (find k s).1 (find k s).2 x) n = if n = k then x else value s n := by
  have hnd := find_nodup k s h
  have hnd2 : (keys (store (find k s).1 (find k s).2 x)).Nodup := by rw [keys_store]; exact hnd
  obtain ⟨hlt, w, hw⟩ := find_idx k s
  by_cases hnk : n = k
  · subst hnk
    rw [if_pos rfl]
    apply (value_of_mem hnd2 (i := (find n s).2) _).1
    simp [store, List.getElem?_modify, hw]
  · rw [if_neg hnk, ← value_find h k n]
    by_cases hn : n ∈ keys (find k s).1
    · obtain ⟨i, v, hi⟩ := mem_keys_iff.1 hn
      rw [(value_of_mem hnd hi).1]
      apply (value_of_mem hnd2 (i := i) _).1
      have : (find k s).2 ≠ i := by
        intro hij; rw [hij] at hw; rw [hw] at hi; cases hi; exact hnk rfl
      simp [store, List.getElem?_modify, this, hi]
    · rw [value_of_not_mem hn, value_of_not_mem]
      rw [keys_store]; exact hn

theorem value_resetAll {s : State} (h : (keys s).Nodup) (n : Str) :
    value (s.map fun e => (e.1, 0)) n = 0 := by
  by_cases hn : n ∈ keys s
  · obtain ⟨i, v, hi⟩ := mem_keys_iff.1 hn
    apply (value_of_mem (i := i) _ _).1
    · rw [keys_resetAll]; exact h
    · simp [hi]
  · apply value_of_not_mem; rw [keys_resetAll]; exact hn

end Verif.Counter
