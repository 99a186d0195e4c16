import Verif.Proofs.CallRow
import Verif.Model.Solve
import Verif.Props.Transcode

/-! The lookup of aliases: tables of names, and the three phases. -/

namespace Verif.Solve
open Verif.Spec
open Verif.Engine hiding Datum step

/-- No name stands twice in the table. -/
def Keyed (rows : Rows) : Prop := ∀ r ∈ rows, ∀ r' ∈ rows, r.1 = r'.1 → r = r'

theorem charData_inj {a b : List Nat} (h : charData a = charData b) : a = b := by
  unfold charData at h
  exact (List.map_inj_right (fun x y e => by simpa using e)).1 h

theorem charData_length (s : List Nat) : (charData s).length = s.length := by simp [charData]

theorem lookup_alias (rows : Rows) (p : List Nat) : lookup (aliasRules rows) (charData p) = (lookup rows p).map charData := by
  induction rows with
  | nil => rfl
  | cons r rows ih =>
    simp only [aliasRules, List.map_cons, lookup] at ih ⊢
    by_cases h : r.1 = p
    · rw [if_pos (by rw [h]), if_pos h]; rfl
    · rw [if_neg (fun e => h (charData_inj e)), if_neg h]; exact ih

theorem longest_alias (rows : Rows) (s : List Nat) :
    longest (aliasRules rows) (charData s) = (longest rows s).map fun x => (x.1, charData x.2) := by
  unfold longest
  rw [charData_length]
  generalize s.length = n
  induction n with
  | zero => rfl
  | succ n ih =>
    have e : (charData s).take (n + 1) = charData (s.take (n + 1)) := by simp [charData, List.map_take]
    simp only [longestUpTo, e, lookup_alias]
    cases lookup rows (s.take (n + 1)) with
    | none => simpa using ih
    | some b => rfl

theorem first_alias (rows : Rows) (s : List Nat) :
    firstMatch [aliasRules rows] (charData s) = (firstMatch [rows] s).map fun x => (x.1, charData x.2) := by
  simp only [firstMatch, longest_alias]
  cases longest rows s <;> rfl

/-- A token over bytes as one over data. -/
def dataTok : Tok Nat (List Nat) → Tok (List Nat) (List (List Nat))
  | .hit b => .hit (charData b)
  | .miss a => .miss [1, a]

theorem tokens_alias (rows : Rows) : ∀ (n : Nat) (s : List Nat), s.length ≤ n →
    Spec.tokens [aliasRules rows] (charData s) = (Spec.tokens [rows] s).map dataTok := by
  intro n
  induction n with
  | zero =>
    intro s h
    obtain rfl : s = [] := List.length_eq_zero_iff.1 (by omega)
    simp [charData]
  | succ n ih =>
    intro s h
    cases s with
    | nil => simp [charData]
    | cons b s =>
      have hf := first_alias rows (b :: s)
      cases hm : firstMatch [rows] (b :: s) with
      | none =>
        rw [hm] at hf
        rw [tokens_miss hm]
        have e : charData (b :: s) = [1, b] :: charData s := rfl
        rw [e] at hf ⊢
        rw [tokens_miss (by simpa using hf), ih s (by simpa using h)]
        rfl
      | some x =>
        obtain ⟨k, d⟩ := x
        rw [hm] at hf
        obtain ⟨h1, h2⟩ := firstMatch_pos hm
        rw [tokens_hit hm, tokens_hit hf]
        have e : (charData (b :: s)).drop k = charData ((b :: s).drop k) := by simp [charData, List.map_drop]
        simp only [List.map_cons, dataTok]
        rw [e, ih _ (by simp only [List.length_drop]; simp only [List.length_cons] at h ⊢; omega)]

theorem longest_is {rows : Rows} (hk : Keyed rows) {a d s : List Nat} (h1 : (a, d) ∈ rows) (h2 : a ≠ [])
    (h3 : ∀ r ∈ rows, r.1 <+: a ++ s → r.1.length ≤ a.length) : firstMatch [rows] (a ++ s) = some (a.length, d) := by
  have hpos : 1 ≤ a.length := List.length_pos_iff.2 h2
  have hl : lookup rows a = some d := by
    cases hl : lookup rows a with
    | none => exact absurd rfl (Verif.Spec.lookup_none.1 hl _ h1)
    | some b =>
      have := hk _ (Verif.Spec.lookup_mem hl) _ h1 rfl
      rw [Prod.mk.injEq] at this
      rw [this.2]
  have key : longest rows (a ++ s) = some (a.length, d) := by
    cases hc : longest rows (a ++ s) with
    | none =>
      have := longestUpTo_none.1 hc a.length hpos (by simp)
      rw [List.take_left' rfl, hl] at this
      exact absurd this (by simp)
    | some x =>
      obtain ⟨m, b⟩ := x
      obtain ⟨g1, g2, g3, g4⟩ := longestUpTo_some hc
      have hle : m ≤ a.length := by
        have := h3 _ (Verif.Spec.lookup_mem g3) (List.take_prefix _ _)
        simp only [List.length_take] at this
        omega
      have hge : a.length ≤ m := by
        rcases Nat.lt_or_ge m a.length with k | k
        · have := g4 _ k (by simp)
          rw [List.take_left' rfl, hl] at this
          exact absurd this (by simp)
        · exact k
      obtain rfl : m = a.length := by omega
      rw [List.take_left' rfl, hl] at g3
      rw [Option.some.inj g3]
  simp only [firstMatch, key]

/-- Cutting into the longest names finds no rest exactly if the text falls into names. -/
theorem resolves_tokens {rows : Rows} (hk : Keyed rows) (s t : List Nat) :
    Resolves rows s t ↔ misses (Spec.tokens [rows] s) = 0 ∧ dropMisses (Spec.tokens [rows] s) = t := by
  constructor
  · intro h
    induction h with
    | nil => simp [misses, dropMisses]
    | @cons a d s t h1 h2 h3 _ ih =>
      rw [tokens_hit (longest_is hk h1 h2 h3), List.drop_left' rfl]
      exact ⟨ih.1, by simp only [dropMisses, ih.2]⟩
  · rintro ⟨h1, rfl⟩
    induction hl : s.length using Nat.strongRecOn generalizing s with
    | _ n ih =>
      subst hl
      cases s with
      | nil => simpa [dropMisses] using Resolves.nil
      | cons b s =>
        cases hm : firstMatch [rows] (b :: s) with
        | none => rw [tokens_miss hm] at h1; simp [misses] at h1
        | some x =>
          obtain ⟨k, d⟩ := x
          have hlong : longest rows (b :: s) = some (k, d) := by
            simp only [firstMatch] at hm
            cases hc : longest rows (b :: s) with
            | none => rw [hc] at hm; simp at hm
            | some y => rw [hc] at hm; simpa using hm
          obtain ⟨g1, g2, g3, g4⟩ := longestUpTo_some hlong
          rw [tokens_hit hm] at h1 ⊢
          simp only [misses] at h1
          have hr := ih _ (by simp only [List.length_drop]; omega) ((b :: s).drop k) h1 rfl
          have hlen : ((b :: s).take k).length = k := by rw [List.length_take]; omega
          have := Resolves.cons (T := rows) (a := (b :: s).take k) (Verif.Spec.lookup_mem g3) (by
            intro e; rw [e] at hlen; simp at hlen; omega) (by
            intro r hr hp
            rw [List.take_append_drop] at hp
            rw [hlen]
            rcases Nat.lt_or_ge k r.1.length with c | c
            · have hle := hp.length_le
              have := g4 _ c hle
              rw [← List.prefix_iff_eq_take.1 hp] at this
              exact absurd rfl (Verif.Spec.lookup_none.1 this _ hr)
            · exact c) hr
          rw [List.take_append_drop] at this
          exact this

theorem resolves_unique {rows : Rows} (hk : Keyed rows) {s t t' : List Nat} (h : Resolves rows s t) (h' : Resolves rows s t') : t = t' :=
  ((resolves_tokens hk s t).1 h).2.symm.trans ((resolves_tokens hk s t').1 h').2

end Verif.Solve
