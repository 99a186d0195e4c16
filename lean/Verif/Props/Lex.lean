import Verif.Spec.Lex
import Verif.Props.Charset
import Verif.Proofs.CiTable

/-! Reading with several tables, one looking further than the next (used by C96, C97). -/

namespace Verif.Props
open Verif.Spec
open Verif.Engine hiding Datum step

variable {π : Type}

theorem table_miss {R : Rules Nat (List Datum)} (t : π) : ∀ (s u : List Nat), (∀ r ∈ R, ¬ r.1 <+: u ++ s) →
    (Reader.table R : Reader π).read t u s = .dead t ∨ (Reader.table R : Reader π).read t u s = .ended t
  | [], _, _ => .inr rfl
  | b :: s, u, h => by
    have e : u ++ b :: s = (u ++ [b]) ++ s := by simp
    have hl : lookup R (u ++ [b]) = none := by
      cases hl : lookup R (u ++ [b]) with
      | none => rfl
      | some o =>
        obtain ⟨r, hr, e1, _⟩ := single_lookup_none.lookup_some_mem hl
        exact absurd (by rw [e1, e]; exact List.prefix_append _ _) (h r hr)
    rw [Reader.read]
    by_cases ha : R.any (fun r => (u ++ [b]).isPrefixOf r.1) = true
    · have hs : (Reader.table R : Reader π).step t u b = .more t := by simp only [Reader.table, hl, if_pos ha]
      rw [hs]
      exact table_miss t s (u ++ [b]) (by rw [← e]; exact h)
    · have hs : (Reader.table R : Reader π).step t u b = .dead t := by simp only [Reader.table, hl, if_neg ha]
      rw [hs]
      exact .inl rfl

/-- Tables cut bytes into pieces as said. -/
theorem tables_pieces {s : Static π} {Rs : Nat → Rules Nat (List Datum)} (h1 : s.type = .from_)
    (h2 : ∀ j, j ≤ s.codecn → Represents (s.codecs j) (Rs j) ∧ PrefixFree (Rs j) ∧ ∀ r ∈ Rs j, r.2 ≠ [] ∧ ∀ x ∈ r.2, IsBytes x) (p : Nat → π)
    {T : List Nat} {l : List (List Nat × Datum)} (h : Pieces Rs s.codecn T l) :
    ∃ D : Proc π, Realises s (fun q => q = p) D ∧ ∀ ds, ds.flatten = T → D.out ds = l.map Prod.snd ∧ D.inErrors ds = 0 ∧ D.outErrors ds = 0 ∧ D.ok ds := by
  have hR : Readers s (fun j => Reader.table (Rs j)) (fun _ _ => True) (fun j => AtTable (s.codecs j)) := by
    refine ⟨h1, ?_⟩
    intro j hj
    obtain ⟨k1, k2, k3⟩ := h2 j hj
    exact table_reader k1 k2 (by
      intro p b hl
      obtain ⟨r, hr, _, e⟩ := single_lookup_none.lookup_some_mem hl
      rw [← e]; exact (k3 r hr).2) _
  refine ⟨_, reader_realises hR (p := p) (fun _ => trivial), ?_⟩
  intro ds hds
  have hsp : ∀ i, setPriv p i (p i) = p := by
    intro i
    funext k; simp only [setPriv]; split
    · rename_i h; rw [h]
    · rfl
  have all : (decode (fun j => Reader.table (Rs j)) s.codecn p T).out = l.map Prod.snd ∧ (decode (fun j => Reader.table (Rs j)) s.codecn p T).errors = 0 := by
    clear hds
    induction h with
    | nil => rw [decode_nil]; exact ⟨rfl, rfl⟩
    | @cons j q s' d l hj hq hl hi hs ih =>
      have key : ∀ k i m, i + k = j → k ≤ m → resume (fun j => Reader.table (Rs j)) m i p [] (q ++ s') = (p, some (s', [d])) := by
        intro k
        induction k with
        | zero =>
          intro i m hik _
          obtain rfl : i = j := by omega
          rw [resume_eq, table_hit (h2 i hj).2.1 hl hq (p i) s']
          simp only [hsp]
        | succ k ihk =>
          intro i m hik hm
          cases m with
          | zero => omega
          | succ m =>
            have := ihk (i + 1) m (by omega) (by omega)
            rcases table_miss (R := Rs i) (p i) (q ++ s') [] (by simpa using hi i (by omega)) with e | e
            · rw [resume_eq, e]
              simp only [hsp]
              exact this
            · rw [resume_eq, e]
              simp only [hsp]
              exact this
      rw [(decode_some (by simp [hq]) (key j 0 s.codecn (by omega) hj)).1]
      simp only [ih.1, ih.2, and_true]
      rfl
  simp only [decoderProc, hds]
  exact ⟨all.1, all.2, trivial, trivial⟩

/-- Tables read a text as said. -/
theorem tables_lex {s : Static π} {Rs : Nat → Rules Nat (List Datum)} (h1 : s.type = .from_)
    (h2 : ∀ j, j ≤ s.codecn → Represents (s.codecs j) (Rs j) ∧ PrefixFree (Rs j) ∧ ∀ r ∈ Rs j, r.2 ≠ [] ∧ ∀ x ∈ r.2, IsBytes x) (p : Nat → π)
    {T cps : List Nat} (hT : IsBytes T) (h : Lexed Rs s.codecn T cps) : ReadsAs s p T cps := by
  obtain ⟨l, hl, e⟩ : ∃ l, Pieces Rs s.codecn T l ∧ l.map Prod.snd = textData cps := by
    clear hT
    induction h with
    | nil => exact ⟨[], .nil, rfl⟩
    | cons a b c d _ ih =>
      obtain ⟨l, i1, i2⟩ := ih
      exact ⟨_, .cons a b c d i1, by rw [List.map_cons, i2]; rfl⟩
  obtain ⟨D, k1, k2⟩ := tables_pieces h1 h2 p hl
  rw [e] at k2
  exact ⟨hT, D, k1, k2⟩

/-- All different. -/
def distinct : List Nat → Bool
  | [] => true
  | a :: l => l.all (fun b => !Nat.beq b a) && distinct l

theorem distinct_inj {α : Type} (f : α → Nat) : ∀ {l : List α}, distinct (l.map f) = true → ∀ a ∈ l, ∀ b ∈ l, f b = f a → b = a
  | [], _, _, h, _, _, _ => by simp at h
  | x :: l, h, a, ha, b, hb, e => by
    simp only [List.map_cons, distinct, Bool.and_eq_true, List.all_eq_true, List.mem_map, Bool.not_eq_true'] at h
    have ne : ∀ y ∈ l, f y ≠ f x := fun y hy k => by
      have := h.1 (f y) ⟨y, hy, rfl⟩
      rw [k, Nat.beq_refl] at this
      cases this
    rcases List.mem_cons.1 ha with rfl | ha'
    · rcases List.mem_cons.1 hb with rfl | hb'
      · rfl
      · exact absurd e (ne b hb')
    · rcases List.mem_cons.1 hb with rfl | hb'
      · exact absurd e.symm (ne a ha')
      · exact distinct_inj f h.2 a ha' b hb' e

/-- The table of ASCII, for a character but U+02DC. -/
theorem to_ascii {cp : Nat} (hcp : Scalar cp) (hn : cp ≠ 0x2DC) : lookup Ascii.toRules [uniDatum cp] = if 1 ≤ cp ∧ cp < 0x80 then some [[cp]] else none := by
  by_cases h1 : 1 ≤ cp ∧ cp < 0x80
  · rw [if_pos h1, show uniDatum cp = [1, cp] by rw [uniDatum, be1 (by omega)], toAscii_lookup cp h1.1 h1.2]
  · rw [if_neg h1]
    cases hl : lookup Ascii.toRules [uniDatum cp] with
    | none => rfl
    | some o =>
      have := Verif.Spec.lookup_mem hl
      unfold Ascii.toRules at this
      unfold Scalar at hcp
      rcases List.mem_append.1 this with hm | hm
      · obtain ⟨k, hk, e⟩ := List.mem_map.1 hm
        simp only [Prod.mk.injEq, List.cons.injEq, and_true] at e
        have e1 : uniDatum (k + 1) = [1, k + 1] := by rw [uniDatum, be1 (by simp at hk; omega)]
        have := uni_inj (by simp at hk; omega) (by omega) (e1.trans e.1)
        simp at hk
        omega
      · simp only [List.mem_singleton, Prod.mk.injEq, List.cons.injEq, and_true] at hm
        have e1 : uniDatum 0x2DC = [1, 2, 0xDC] := by rw [uniDatum, be2 (by omega) (by omega)]
        exact absurd (uni_inj (by omega) (by omega) (hm.1.trans e1.symm)) hn

/-- What the tables `_X,ASCII` say about a character. -/
theorem charset_lookup {x : Charset} (hf : x.Fine) {cp : Nat} (hcp : Scalar cp) :
    [x.toRules, Ascii.toRules].findSome? (fun R => lookup R [uniDatum cp]) = (x.code cp).map fun c => [beBytes c] := by
  simp only [List.findSome?_cons, List.findSome?_nil]
  rw [toRules_lookup hf hcp]
  unfold Charset.code
  cases hw : x.writes.find cp with
  | some c => rfl
  | none =>
    simp only [Option.map_none]
    by_cases h2 : cp = 0x2DC
    · subst h2
      have : lookup Ascii.toRules [uniDatum 0x2DC] = some [[0x7E]] := by
        rw [show uniDatum 0x2DC = [1, 2, 0xDC] by rw [uniDatum, be2 (by omega) (by omega)]]
        decide +kernel
      rw [this]
      simp [be1 (show (0x7E : Nat) < 256 by omega)]
    · rw [to_ascii hcp h2]
      by_cases h1 : 1 ≤ cp ∧ cp < 0x80
      · simp only [if_pos h1, Option.map_some, be1 (show cp < 256 by omega)]
      · simp only [if_neg h1, if_neg h2, Option.map_none]

end Verif.Props
