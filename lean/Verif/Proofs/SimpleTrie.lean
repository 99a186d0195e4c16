import Verif.Proofs.EngineBasic

/-! Every rule set is represented by some automaton: used to show that hypotheses `Represents` can be
met, and to build concrete instances.  (The automaton built by the real table compiler is the subject
of Model/MkTable.lean.) -/

namespace Verif.Engine
open Verif.Spec

variable {π : Type}

theorem snoc_induction {α : Type} {P : List α → Prop} (l : List α) (nil : P [])
    (append_singleton : ∀ l a, P l → P (l ++ [a])) : P l := by
  have : ∀ r : List α, P r.reverse := by
    intro r
    induction r with
    | nil => exact nil
    | cons a r ih => rw [List.reverse_cons]; exact append_singleton _ _ ih
  simpa using this l.reverse

/-- Non-empty prefixes of the patterns. -/
def prefixes (S : Rules Nat (List Datum)) : List (List Nat) :=
  S.flatMap (fun r => (List.range r.1.length).map (fun i => r.1.take (i + 1)))

/-- An automaton whose node `i+1` is the `i`-th prefix. -/
def trieCodec (S : Rules Nat (List Datum)) : Codec π where
  next := fun o s =>
    let p := if o = 0 then [] else (prefixes S).getD (o - 1) []
    let q := p ++ [s]
    if q ∈ prefixes S then (prefixes S).idxOf q + 1 else 0
  status := fun o => if o = 0 then .deadend else nodeStatus S ((prefixes S).getD (o - 1) [])
  data := fun o => (lookup S ((prefixes S).getD (o - 1) [])).getD []

theorem mem_prefixes {S : Rules Nat (List Datum)} {p : List Nat} (hp : p ≠ []) :
    p ∈ prefixes S ↔ ∃ r ∈ S, p <+: r.1 := by
  simp only [prefixes, List.mem_flatMap, List.mem_map, List.mem_range]
  constructor
  · rintro ⟨r, hr, i, hi, rfl⟩
    exact ⟨r, hr, List.take_prefix _ _⟩
  · rintro ⟨r, hr, hpre⟩
    have hl := hpre.length_le
    have hpos : 0 < p.length := List.length_pos_iff.2 hp
    exact ⟨r, hr, p.length - 1, by omega, by
      rw [Nat.sub_add_cancel hpos]; exact (List.prefix_iff_eq_take.1 hpre).symm⟩

theorem prefixes_ne {S : Rules Nat (List Datum)} {p : List Nat} (h : p ∈ prefixes S) : p ≠ [] := by
  simp only [prefixes, List.mem_flatMap, List.mem_map, List.mem_range] at h
  obtain ⟨r, hr, i, hi, rfl⟩ := h
  intro h0
  have := congrArg List.length h0
  simp at this
  rw [this] at hi; simp at hi

theorem getD_idxOf {l : List (List Nat)} {q : List Nat} (h : q ∈ l) : l.getD (l.idxOf q) [] = q := by
  have hlt : l.idxOf q < l.length := List.idxOf_lt_length_of_mem h
  simp [List.getD_eq_getElem?_getD, List.getElem?_eq_getElem hlt]

theorem prefix_closed {S : Rules Nat (List Datum)} {p : List Nat} {s : Nat} (hp : p ≠ [])
    (h : p ++ [s] ∈ prefixes S) : p ∈ prefixes S := by
  obtain ⟨r, hr, hpre⟩ := (mem_prefixes (by simp)).1 h
  exact (mem_prefixes hp).2 ⟨r, hr, (List.prefix_append _ _).trans hpre⟩

theorem trie_next (S : Rules Nat (List Datum)) (o s : Nat) {p : List Nat}
    (h : (if o = 0 then [] else (prefixes S).getD (o - 1) []) = p) :
    (trieCodec S : Codec π).next o s
      = if p ++ [s] ∈ prefixes S then (prefixes S).idxOf (p ++ [s]) + 1 else 0 := by
  subst h; rfl

theorem trie_walk (S : Rules Nat (List Datum)) (p : List Nat) (o : Nat) :
    walk (trieCodec S : Codec π) 0 p = some o →
      (p = [] ∧ o = 0) ∨ (p ∈ prefixes S ∧ o = (prefixes S).idxOf p + 1) := by
  induction p using snoc_induction generalizing o with
  | nil => intro h; left; simp [walk] at h; exact ⟨rfl, h.symm⟩
  | append_singleton p s ih =>
    intro h
    rw [walk_append] at h
    cases hw : walk (trieCodec S : Codec π) 0 p with
    | none => rw [hw] at h; simp at h
    | some o' =>
      rw [hw] at h
      simp only [Option.bind_some, walk_one] at h
      right
      have hnode : (if o' = 0 then [] else (prefixes S).getD (o' - 1) []) = p := by
        rcases ih o' hw with ⟨h1, h2⟩ | ⟨h1, h2⟩
        · simp [h1, h2]
        · rw [h2, if_neg (by omega), Nat.add_sub_cancel, getD_idxOf h1]
      rw [trie_next S o' s hnode] at h
      by_cases hm : p ++ [s] ∈ prefixes S
      · simp only [if_pos hm] at h
        rw [if_neg (by omega)] at h
        exact ⟨hm, (Option.some.inj h).symm⟩
      · simp [if_neg hm] at h

theorem trie_walk_some (S : Rules Nat (List Datum)) (p : List Nat) (h : p ∈ prefixes S) :
    walk (trieCodec S : Codec π) 0 p = some ((prefixes S).idxOf p + 1) := by
  induction p using snoc_induction with
  | nil => exact absurd rfl (prefixes_ne h)
  | append_singleton p s ih =>
    rw [walk_append]
    have : ∃ o', walk (trieCodec S : Codec π) 0 p = some o' ∧
        (if o' = 0 then [] else (prefixes S).getD (o' - 1) []) = p := by
      by_cases hp : p = []
      · exact ⟨0, by rw [hp]; rfl, by simp [hp]⟩
      · have hm := prefix_closed hp h
        exact ⟨_, ih hm, by rw [if_neg (by omega), Nat.add_sub_cancel, getD_idxOf hm]⟩
    obtain ⟨o', h1, h2⟩ := this
    rw [h1]
    simp only [Option.bind_some, walk_one]
    rw [trie_next S o' s h2, if_pos h, if_neg (by omega)]

/-- Any rule set is represented by an automaton. -/
theorem represents_trie (S : Rules Nat (List Datum)) (hne : ∀ r ∈ S, r.1 ≠ []) :
    Represents (trieCodec S : Codec π) S := by
  refine ⟨rfl, ?_, ?_, ?_⟩
  · intro p hp
    constructor
    · intro h
      obtain ⟨o, ho⟩ := Option.isSome_iff_exists.1 h
      rcases trie_walk S p o ho with ⟨h1, _⟩ | ⟨h1, _⟩
      · exact absurd h1 hp
      · exact (mem_prefixes hp).1 h1
    · intro h
      rw [trie_walk_some S p ((mem_prefixes hp).2 h)]
      rfl
  · intro p o hp ho
    rcases trie_walk S p o ho with ⟨h1, _⟩ | ⟨h1, h2⟩
    · exact absurd h1 hp
    · subst h2
      simp only [trieCodec]
      rw [if_neg (by omega), Nat.add_sub_cancel, getD_idxOf h1]
  · intro p o b ho hl
    rcases trie_walk S p o ho with ⟨h1, _⟩ | ⟨h1, h2⟩
    · subst h1
      exact absurd rfl (hne _ (lookup_mem hl))
    · subst h2
      simp only [trieCodec]
      rw [Nat.add_sub_cancel, getD_idxOf h1, hl]
      rfl

end Verif.Engine
