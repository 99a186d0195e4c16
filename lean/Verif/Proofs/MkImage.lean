import Verif.Proofs.MkString

/-! Reading a file after writes to disjoint regions. -/

namespace Verif.MkTable
open Verif.Engine (Status Datum Codec)

/-- A region of the file: offset and size. -/
abbrev Reg := Nat × Nat

/-- Two regions do not overlap. -/
def Apart (a b : Reg) : Prop := a.1 + a.2 ≤ b.1 ∨ b.1 + b.2 ≤ a.1

theorem Apart.symm {a b : Reg} (h : Apart a b) : Apart b a := h.elim .inr .inl

def region (w : Nat × List Nat) : Reg := (w.1, w.2.length)

theorem poke_out {f : Nat → Nat} {w : Nat × List Nat} {k : Nat} (h : ¬ (w.1 ≤ k ∧ k < w.1 + w.2.length)) : poke f w k = f k := by
  simp only [poke, if_neg h]

theorem foldl_poke_out {ws : List (Nat × List Nat)} {f : Nat → Nat} {k : Nat}
    (h : ∀ w ∈ ws, ¬ (w.1 ≤ k ∧ k < w.1 + w.2.length)) : ws.foldl poke f k = f k := by
  induction ws generalizing f with
  | nil => rfl
  | cons w ws ih =>
    rw [List.foldl_cons, ih (fun x hx => h x (by simp [hx])), poke_out (h w (by simp))]

/-- What was written is there. -/
theorem foldl_poke_in {ws : List (Nat × List Nat)} (hp : (ws.map region).Pairwise Apart) {w : Nat × List Nat} (hw : w ∈ ws)
    (f : Nat → Nat) {i : Nat} (hi : i < w.2.length) : ws.foldl poke f (w.1 + i) = w.2.getD i 0 := by
  induction ws generalizing f with
  | nil => simp at hw
  | cons x ws ih =>
    rw [List.map_cons, List.pairwise_cons] at hp
    rw [List.foldl_cons]
    by_cases hm : w ∈ ws
    · exact ih hp.2 hm _
    · have : w = x := by simpa [hm] using hw
      subst this
      rw [foldl_poke_out]
      · simp only [poke]
        rw [if_pos (by omega), Nat.add_sub_cancel_left]
      · intro y hy hk
        have := hp.1 (region y) (List.mem_map_of_mem hy)
        simp only [Apart, region] at this
        omega

theorem file_in {ws : List (Nat × List Nat)} (hp : (ws.map region).Pairwise Apart) {w : Nat × List Nat} (hw : w ∈ ws)
    {i : Nat} (hi : i < w.2.length) : file ws (w.1 + i) = w.2.getD i 0 := foldl_poke_in hp hw _ hi

/-- The new region may come anywhere. -/
theorem pw_insert {a b : List Reg} {x : Reg} (h : (a ++ b).Pairwise Apart) (hx : ∀ y ∈ a ++ b, Apart x y) : (a ++ x :: b).Pairwise Apart := by
  rw [List.pairwise_append] at h ⊢
  refine ⟨h.1, ?_, ?_⟩
  · rw [List.pairwise_cons]
    exact ⟨fun y hy => hx y (by simp [hy]), h.2.1⟩
  · intro y hy z hz
    rcases List.mem_cons.1 hz with rfl | hz
    · exact (hx y (by simp [hy])).symm
    · exact h.2.2 y hy z hz

theorem get32_le32 {z : Nat → Nat} {o n : Nat} (hn : n < 4294967296) (h : ∀ i, i < 4 → z (o + i) = (le32 n).getD i 0) : get32 z o = n := by
  have h0 := h 0 (by omega)
  have h1 := h 1 (by omega)
  have h2 := h 2 (by omega)
  have h3 := h 3 (by omega)
  simp [le32] at h0 h1 h2 h3
  simp only [get32]
  omega

theorem get16_le16 {z : Nat → Nat} {o n : Nat} (hn : n < 65536) (h : ∀ i, i < 2 → z (o + i) = (le16 n).getD i 0) : get16 z o = n := by
  have h0 := h 0 (by omega)
  have h1 := h 1 (by omega)
  simp [le16] at h0 h1
  simp only [get16]
  omega

/-- A part of what was written. -/
theorem part {z : Nat → Nat} {o m : Nat} {l a x b : List Nat} (h : ∀ i, i < l.length → z (o + i) = l.getD i 0) (e : l = a ++ x ++ b)
    (hm : m = o + a.length) : ∀ i, i < x.length → z (m + i) = x.getD i 0 := by
  intro i hi
  have := h (a.length + i) (by rw [e]; simp; omega)
  rw [hm, Nat.add_assoc, this, e]
  simp only [List.getD_eq_getElem?_getD]
  rw [List.append_assoc, List.getElem?_append_right (by omega), Nat.add_sub_cancel_left, List.getElem?_append_left hi]

end Verif.MkTable
