import Verif.Proofs.MkCells

namespace Verif.MkTable
open Verif.Engine (Status Datum Codec)

def cellReg (c : Cell) : Reg := (c.offset, 12)

/-- The regions `a` and those of the cells are apart, and lie below `offset`. -/
structure Lay (base : Nat) (a : List Reg) (cells : List Cell) (offset : Nat) : Prop where
  apart : (a ++ cells.map cellReg).Pairwise Apart
  below : ∀ y ∈ a ++ cells.map cellReg, y.1 + y.2 ≤ offset
  base : base ≤ offset

theorem regs_of_offsets {A B : List Cell} (h : A.map Cell.offset = B.map Cell.offset) : A.map cellReg = B.map cellReg := by
  have : ∀ l : List Cell, l.map cellReg = (l.map Cell.offset).map fun o => (o, 12) := by
    intro l; rw [List.map_map]; rfl
  rw [this, this, h]

theorem Lay.same {base : Nat} {a : List Reg} {A B : List Cell} {o : Nat} (h : Lay base a A o) (e : B.map Cell.offset = A.map Cell.offset) :
    Lay base a B o := by
  have := regs_of_offsets e
  exact ⟨by rw [this]; exact h.apart, by rw [this]; exact h.below, h.base⟩

theorem Lay.add {base : Nat} {a : List Reg} {A : List Cell} {o : Nat} (h : Lay base a A o) (n : Nat) : Lay base (a ++ [(o, n)]) A (o + n) := by
  have hb := h.below
  refine ⟨?_, ?_, by have := h.base; omega⟩
  · rw [List.append_assoc]
    apply pw_insert h.apart
    intro y hy
    have := hb y hy
    exact .inr this
  · intro y hy
    simp only [List.mem_append, List.mem_singleton] at hy hb
    rcases hy with (hy | rfl) | hy
    · have := hb y (.inl hy); omega
    · exact Nat.le_refl _
    · have := hb y (.inr hy); omega

theorem Lay.cell {base : Nat} {a : List Reg} {A B : List Cell} {o : Nat} (h : Lay base a A o) (e : B.map Cell.offset = o :: A.map Cell.offset) :
    Lay base a B (o + 12) := by
  have hb := h.below
  have e' : B.map cellReg = (o, 12) :: A.map cellReg := by
    have : B.map Cell.offset = (({ offset := o, suffix := [], next := 0, len := 0 } : Cell) :: A).map Cell.offset := by simpa using e
    rw [regs_of_offsets this]; rfl
  refine ⟨?_, ?_, by have := h.base; omega⟩
  · rw [e']
    apply pw_insert h.apart
    intro y hy
    exact .inr (hb y hy)
  · rw [e']
    intro y hy
    simp only [List.mem_append, List.mem_cons] at hy hb
    rcases hy with hy | rfl | hy
    · have := hb y (.inl hy); omega
    · exact Nat.le_refl _
    · have := hb y (.inr hy); omega

/-- After the data of a state. -/
structure Done (base : Nat) (a : List Reg) (s t : Scan) : Prop where
  cells : Cells base t.cells
  ok : ∀ q, Ok t.cells q
  lay : Lay base a t.cells t.offset
  mono : ∀ q, cellOffset s.cells q ≠ 0 → cellOffset t.cells q = cellOffset s.cells q
  le : s.offset ≤ t.offset

/-- The step within a datum. -/
def stepIn (s : Scan) (c : Nat) : Scan := if c = 256 then { s.close with k := true, l := 0 } else { s with l := s.l + 1 }

theorem run_cons (s : Scan) (c : Nat) (cs : List Nat) : s.run (c :: cs) = (stepIn (if s.k then s.start (c :: cs) else s) c).run cs := rfl

theorem run_spec {base : Nat} (hb : 0 < base) (a : List Reg) (p : List Nat) : ∀ s : Scan, Lay base a s.cells s.offset →
    (Between base s p → Done base a s (s.run p) ∧ (p ≠ [] → cellOffset (s.run p).cells p ≠ 0)) ∧
    (∀ cur, Inside base s cur p → Done base a s (s.run p)) := by
  induction p with
  | nil =>
    intro s hL
    constructor
    · intro h
      have e : s.run [] = s := by simp [Scan.run, Scan.close, h.jf]
      rw [e]
      exact ⟨⟨h.cells, h.done, hL, fun _ _ => rfl, Nat.le_refl _⟩, fun h => absurd rfl h⟩
    · intro cur h
      obtain ⟨d, h1, h2, h3⟩ := h.split
      rw [List.append_nil] at h1
      subst h1
      obtain ⟨w1, w2⟩ := after_whole h2
      obtain ⟨k1, k2, k3, ⟨c, k4, k5, k6⟩, k7, k8, k9, k10⟩ := close_spec h (by rw [w2]; exact h3)
      refine ⟨k1, ?_, ?_, fun q hq => k7 q, by rw [show s.run [] = s.close from rfl, k9]; exact Nat.le_refl _⟩
      · intro q
        by_cases hq : q = cur
        · subst hq
          intro c' hc'
          have hc' : cellAt s.close.cells q = some c' := hc'
          rw [k4] at hc'
          cases hc'
          refine ⟨k5, ?_⟩
          rcases k6 with k6 | k6
          · refine ⟨?_, fun hn => absurd w1 hn⟩
            rw [k6, w1, show (s.run []).cells = s.close.cells from rfl, offset_nil k1]
          · exact k6
        · exact k3 q hq
      · show Lay base a s.close.cells s.close.offset
        rw [k9]
        exact hL.same k8
  | cons c cs ih =>
    have inner : ∀ (s : Scan) cur, Lay base a s.cells s.offset → Inside base s cur (c :: cs) → Done base a s ((stepIn s c).run cs) := by
      intro s cur hL h
      obtain ⟨d, h1, h2, h3⟩ := h.split
      by_cases hc : c = 256
      · subst hc
        obtain ⟨w1, w2⟩ := after_split (p := cs) h2
        rw [← h1] at w1 w2
        obtain ⟨k1, k2, k3, ⟨x, k4, k5, k6⟩, k7, k8, k9, k10⟩ := close_spec h (by rw [w2]; exact h3)
        have e : stepIn s 256 = { s.close with k := true, l := 0 } := rfl
        have hB : Between base (stepIn s 256) cs := by
          rw [e]
          refine ⟨k1, rfl, rfl, k2, ?_, ?_⟩
          · intro q hq
            simp only [k10, h.dq] at hq
            exact k3 q (fun e => hq (by rw [e]))
          · intro q hq
            simp only [k10, h.dq, Option.some.injEq] at hq
            subst hq
            exact ⟨by rw [h1]; simp, w1, x, k4, k5, k6⟩
        have hL' : Lay base a (stepIn s 256).cells (stepIn s 256).offset := by
          show Lay base a s.close.cells s.close.offset
          rw [k9]; exact hL.same k8
        obtain ⟨m1, _⟩ := (ih (stepIn s 256) hL').1 hB
        refine ⟨m1.cells, m1.ok, m1.lay, fun q hq => ?_, ?_⟩
        · rw [m1.mono q (by show cellOffset s.close.cells q ≠ 0; rw [k7]; exact hq)]
          exact k7 q
        · have := m1.le
          rw [show (stepIn s 256).offset = s.close.offset from rfl, k9] at this
          exact this
      · have e : stepIn s c = { s with l := s.l + 1 } := by simp [stepIn, hc]
        have hI : Inside base (stepIn s c) cur cs := by
          rw [e]
          refine ⟨h.cells, h.kf, h.dq, ⟨d ++ [c], by rw [h1]; simp, ?_, by simp [h3]⟩, h.others, h.here⟩
          simp only [List.mem_append, List.mem_singleton, not_or]
          exact ⟨h2, Ne.symm hc⟩
        have := (ih (stepIn s c) (by rw [e]; exact hL)).2 cur hI
        rw [e] at this ⊢
        exact ⟨this.cells, this.ok, this.lay, this.mono, this.le⟩
    intro s hL
    constructor
    · intro h
      rw [run_cons, h.kt, if_pos rfl]
      obtain ⟨k1, k2, k3⟩ := start_spec hb (p := c :: cs) (by simp) h hL.base
      have hL' : Lay base a (s.start (c :: cs)).cells (s.start (c :: cs)).offset := by
        rcases k3 with ⟨k3, k4⟩ | ⟨k3, k4⟩
        · rw [k4]; exact hL.same k3
        · rw [k4]; exact hL.cell k3
      have hle : s.offset ≤ (s.start (c :: cs)).offset := by
        rcases k3 with ⟨_, k4⟩ | ⟨_, k4⟩ <;> omega
      have m := inner _ _ hL' k1
      have hne : cellOffset (s.start (c :: cs)).cells (c :: cs) ≠ 0 := by
        obtain ⟨x, hx, _⟩ := k1.here
        intro e
        rw [(offset_zero hb k1.cells).1 e] at hx
        simp at hx
      refine ⟨⟨m.cells, m.ok, m.lay, fun q hq => ?_, by have := m.le; omega⟩, fun _ => ?_⟩
      · have := k2 q hq
        rw [m.mono q (by rw [this]; exact hq), this]
      · rw [m.mono _ hne]; exact hne
    · intro cur h
      rw [run_cons, h.kf]
      exact inner s cur hL h

end Verif.MkTable
