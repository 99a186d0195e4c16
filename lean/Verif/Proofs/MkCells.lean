import Verif.Proofs.MkImage

/-! The cells for the data of the states. -/

namespace Verif.MkTable
open Verif.Engine (Status Datum Codec)

/-- The string behind the first datum. -/
def after (p : List Nat) : List Nat := (p.dropWhile (· ≠ 256)).drop 1

theorem after_length {p : List Nat} (h : p ≠ []) : (after p).length < p.length := by
  have := (List.dropWhile_suffix (l := p) (fun x => decide (x ≠ 256))).length_le
  unfold after
  rw [List.length_drop]
  have : 0 < p.length := List.length_pos_iff.2 h
  omega

theorem after_split {d p : List Nat} (h : 256 ∉ d) : after (d ++ 256 :: p) = p ∧ firstDatum (d ++ 256 :: p) = d := by
  induction d with
  | nil => simp [after, firstDatum]
  | cons x d ih =>
    have hx : x ≠ 256 := by rintro rfl; simp at h
    have := ih (by intro e; exact h (by simp [e]))
    simp only [after, firstDatum] at this ⊢
    rw [List.cons_append, List.dropWhile_cons_of_pos (by simpa using hx), List.takeWhile_cons_of_pos (by simpa using hx), this.2]
    exact ⟨this.1, rfl⟩

theorem after_whole {d : List Nat} (h : 256 ∉ d) : after d = [] ∧ firstDatum d = d := by
  induction d with
  | nil => simp [after, firstDatum]
  | cons x d ih =>
    have hx : x ≠ 256 := by rintro rfl; simp at h
    have := ih (by intro e; exact h (by simp [e]))
    simp only [after, firstDatum] at this ⊢
    rw [List.dropWhile_cons_of_pos (by simpa using hx), List.takeWhile_cons_of_pos (by simpa using hx), this.2]
    exact ⟨this.1, rfl⟩

def cellAt (cells : List Cell) (p : List Nat) : Option Cell := cells.find? (fun c => c.suffix == p)

theorem cellOffset_eq (cells : List Cell) (p : List Nat) : cellOffset cells p = ((cellAt cells p).map Cell.offset).getD 0 := by
  unfold cellOffset cellAt
  cases cells.find? (fun c => c.suffix == p) <;> rfl

theorem cellAt_cons (c : Cell) (cells : List Cell) (p : List Nat) :
    cellAt (c :: cells) p = if c.suffix = p then some c else cellAt cells p := by
  simp only [cellAt, List.find?_cons]
  by_cases h : c.suffix = p
  · simp [h]
  · have : (c.suffix == p) = false := by simpa using h
    simp [this, h]

theorem cellAt_map {f : Cell → Cell} (hf : ∀ c, (f c).suffix = c.suffix) (cells : List Cell) (p : List Nat) :
    cellAt (cells.map f) p = (cellAt cells p).map f := by
  induction cells with
  | nil => rfl
  | cons c cells ih =>
    rw [List.map_cons, cellAt_cons, cellAt_cons, hf, ih]
    split <;> rfl

theorem cellAt_mem {cells : List Cell} {p : List Nat} {c : Cell} (h : cellAt cells p = some c) : c ∈ cells ∧ c.suffix = p := by
  refine ⟨List.mem_of_find?_eq_some h, ?_⟩
  have := List.find?_some h
  simpa using this

/-- Cells lie behind the states and are for some data. -/
def Cells (base : Nat) (cells : List Cell) : Prop := ∀ c ∈ cells, base ≤ c.offset ∧ c.suffix ≠ []

theorem offset_nil {base : Nat} {cells : List Cell} (h : Cells base cells) : cellOffset cells [] = 0 := by
  rw [cellOffset_eq]
  cases e : cellAt cells [] with
  | none => rfl
  | some c => exact absurd (cellAt_mem e).2 (h c (cellAt_mem e).1).2

theorem offset_zero {base : Nat} (hb : 0 < base) {cells : List Cell} (h : Cells base cells) {p : List Nat} :
    cellOffset cells p = 0 ↔ cellAt cells p = none := by
  rw [cellOffset_eq]
  cases e : cellAt cells p with
  | none => simp
  | some c =>
    have := (h c (cellAt_mem e).1).1
    simp; omega

/-- The chain goes on rightly from the cell of `p`. -/
def Linked (cells : List Cell) (p : List Nat) (c : Cell) : Prop :=
  c.next = cellOffset cells (after p) ∧ (after p ≠ [] → cellOffset cells (after p) ≠ 0)

/-- The cell of `p`, if any, is complete. -/
def Ok (cells : List Cell) (p : List Nat) : Prop :=
  ∀ c, cellAt cells p = some c → c.len = (firstDatum p).length ∧ Linked cells p c

theorem Linked.mono {A B : List Cell} {p : List Nat} {c : Cell} (h : Linked A p c) (hnil : cellOffset A [] = cellOffset B [])
    (hm : ∀ q, cellOffset A q ≠ 0 → cellOffset B q = cellOffset A q) : Linked B p c := by
  refine ⟨?_, fun hn => ?_⟩
  · by_cases hn : after p = []
    · rw [h.1, hn, hnil]
    · rw [hm _ (h.2 hn), h.1]
  · rw [hm _ (h.2 hn)]; exact h.2 hn

/-- In the middle of a datum: `d` of `cur` has been read, `p` is left. -/
structure Inside (base : Nat) (s : Scan) (cur p : List Nat) : Prop where
  cells : Cells base s.cells
  kf : s.k = false
  dq : s.dq = some cur
  split : ∃ d, cur = d ++ p ∧ 256 ∉ d ∧ s.l = d.length
  others : ∀ q, q ≠ cur → Ok s.cells q
  here : ∃ c, cellAt s.cells cur = some c ∧ (c.next = 0 ∨ Linked s.cells cur c) ∧
    (if s.j then s.cells.head? = some c else c.len = (firstDatum cur).length)

/-- At the begin of a datum, or at the end. -/
structure Between (base : Nat) (s : Scan) (p : List Nat) : Prop where
  cells : Cells base s.cells
  kt : s.k = true
  l0 : s.l = 0
  jf : s.j = false
  others : ∀ q, s.dq ≠ some q → Ok s.cells q
  prev : ∀ q, s.dq = some q → q ≠ [] ∧ after q = p ∧ ∃ c, cellAt s.cells q = some c ∧ c.len = (firstDatum q).length ∧
    (c.next = 0 ∨ Linked s.cells q c)

theorem Between.done {base : Nat} {s : Scan} (h : Between base s []) : ∀ q, Ok s.cells q := by
  intro q c hc
  by_cases hq : s.dq = some q
  · obtain ⟨_, h2, c', h3, h4, h5⟩ := h.prev q hq
    rw [hc] at h3
    cases h3
    refine ⟨h4, ?_⟩
    rcases h5 with h5 | h5
    · refine ⟨?_, fun hn => absurd h2 hn⟩
      rw [h5, h2, offset_nil h.cells]
    · exact h5
  · exact h.others q hq c hc

/-- The effect of `close` within a datum. -/
theorem close_spec {base : Nat} {s : Scan} {cur p : List Nat} (h : Inside base s cur p) (hl : s.l = (firstDatum cur).length) :
    Cells base s.close.cells ∧ s.close.j = false ∧ (∀ q, q ≠ cur → Ok s.close.cells q) ∧
    (∃ c, cellAt s.close.cells cur = some c ∧ c.len = (firstDatum cur).length ∧ (c.next = 0 ∨ Linked s.close.cells cur c)) ∧
    (∀ q, cellOffset s.close.cells q = cellOffset s.cells q) ∧ s.close.cells.map Cell.offset = s.cells.map Cell.offset ∧
    s.close.offset = s.offset ∧ s.close.dq = s.dq := by
  obtain ⟨c, h1, h2, h3⟩ := h.here
  unfold Scan.close
  cases hj : s.j with
  | false =>
    rw [hj] at h3
    exact ⟨h.cells, hj, h.others, ⟨c, h1, by simpa using h3, h2⟩, fun _ => rfl, rfl, rfl, rfl⟩
  | true =>
    rw [hj] at h3
    simp only [if_true] at h3 ⊢
    cases hc : s.cells with
    | nil => rw [hc] at h3; simp at h3
    | cons x cs =>
      rw [hc] at h3
      simp only [List.head?_cons, Option.some.injEq] at h3
      subst h3
      have hsx : x.suffix = cur := (cellAt_mem h1).2
      have hat : ∀ q, cellAt ({ x with len := s.l } :: cs) q = if q = cur then some { x with len := s.l } else cellAt s.cells q := by
        intro q
        rw [cellAt_cons, hc, cellAt_cons]
        simp only [hsx]
        by_cases e : cur = q
        · subst e; simp
        · rw [if_neg e, if_neg (Ne.symm e), if_neg e]
      have hoff : ∀ q, cellOffset ({ x with len := s.l } :: cs) q = cellOffset s.cells q := by
        intro q
        rw [cellOffset_eq, cellOffset_eq, hat]
        by_cases e : q = cur
        · subst e; rw [if_pos rfl, h1]; rfl
        · rw [if_neg e]
      have hlk : ∀ q y z, y.next = z.next → Linked s.cells q y → Linked ({ x with len := s.l } :: cs) q z := by
        intro q y z hyz hy
        unfold Linked
        rw [hoff, ← hyz]
        exact hy
      refine ⟨?_, trivial, ?_, ⟨{ x with len := s.l }, by rw [hat]; simp, hl, ?_⟩, ?_, by simp, trivial, trivial⟩
      · intro y hy
        rcases List.mem_cons.1 hy with rfl | hy
        · exact h.cells x (by rw [hc]; simp)
        · exact h.cells y (by rw [hc]; simp [hy])
      · intro q hq y hy
        rw [hat, if_neg hq] at hy
        obtain ⟨k1, k2⟩ := h.others q hq y hy
        exact ⟨k1, hlk q y y rfl k2⟩
      · exact h2.imp id (hlk _ _ _ rfl)
      · intro q; rw [hoff, hc]

/-- Start of a datum. -/
theorem start_spec {base : Nat} (hb : 0 < base) {s : Scan} {p : List Nat} (hp : p ≠ []) (h : Between base s p) (ho : base ≤ s.offset) :
    Inside base (s.start p) p p ∧ (∀ q, cellOffset s.cells q ≠ 0 → cellOffset (s.start p).cells q = cellOffset s.cells q) ∧
    ((s.start p).cells.map Cell.offset = s.cells.map Cell.offset ∧ (s.start p).offset = s.offset ∨
     (s.start p).cells.map Cell.offset = s.offset :: s.cells.map Cell.offset ∧ (s.start p).offset = s.offset + 12) := by
  -- first part: the cell of `p`
  let s1 : Scan := if cellOffset s.cells p = 0 then
      { s with k := false, j := true, cells := ⟨s.offset, p, 0, 0⟩ :: s.cells, offset := s.offset + 12 }
    else { s with k := false }
  have e1 : s.start p = { (match s1.dq with
      | some q => { s1 with cells := s1.cells.map fun (c : Cell) => if c.suffix = q then { c with next := cellOffset s1.cells p } else c }
      | none => s1) with dq := some p } := by
    rfl
  have hdq : s1.dq = s.dq := by simp only [s1]; split <;> rfl
  have hl : s1.l = 0 := by simp only [s1]; split <;> exact h.l0
  have hk : s1.k = false := by simp only [s1]; split <;> rfl
  have hz := offset_zero hb h.cells (p := p)
  have hmono1 : ∀ q, cellOffset s.cells q ≠ 0 → cellOffset s1.cells q = cellOffset s.cells q := by
    intro q hq
    simp only [s1]
    split
    · rename_i e
      simp only
      rw [cellOffset_eq, cellAt_cons, if_neg, ← cellOffset_eq]
      rintro rfl
      exact hq e
    · rfl
  have hcells1 : Cells base s1.cells := by
    simp only [s1]
    split
    · intro c hc
      rcases List.mem_cons.1 hc with rfl | hc
      · exact ⟨ho, hp⟩
      · exact h.cells c hc
    · exact h.cells
  have hat1 : ∀ q, q ≠ p → cellAt s1.cells q = cellAt s.cells q := by
    intro q hq
    simp only [s1]
    split
    · simp only
      rw [cellAt_cons, if_neg (Ne.symm hq)]
    · rfl
  have hpp : ∀ q, s.dq = some q → q ≠ p := by
    intro q hq e
    obtain ⟨g1, g2, _⟩ := h.prev q hq
    have := after_length g1
    rw [g2, e] at this
    omega
  have hnil1 : cellOffset s.cells [] = cellOffset s1.cells [] := by rw [offset_nil h.cells, offset_nil hcells1]
  have hoff1 : cellOffset s1.cells p ≠ 0 := by
    simp only [s1]
    split
    · simp only
      rw [cellOffset_eq, cellAt_cons]
      simp; omega
    · rename_i e; exact e
  have hok1 : ∀ q, q ≠ p → s.dq ≠ some q → Ok s1.cells q := by
    intro q hq hd c hc
    rw [hat1 q hq] at hc
    obtain ⟨k1, k2⟩ := h.others q hd c hc
    exact ⟨k1, k2.mono hnil1 hmono1⟩
  have hhere1 : ∃ c, cellAt s1.cells p = some c ∧ (c.next = 0 ∨ Linked s1.cells p c) ∧
      (if s1.j then s1.cells.head? = some c else c.len = (firstDatum p).length) := by
    by_cases e : cellOffset s.cells p = 0
    · have es : s1 = { s with k := false, j := true, cells := ⟨s.offset, p, 0, 0⟩ :: s.cells, offset := s.offset + 12 } := by
        simp only [s1]; rw [if_pos e]
      rw [es]
      refine ⟨⟨s.offset, p, 0, 0⟩, by simp only; rw [cellAt_cons]; simp, .inl rfl, by simp⟩
    · have es : s1 = { s with k := false } := by
        simp only [s1]; rw [if_neg e]
      rw [es]
      cases hc : cellAt s.cells p with
      | none => exact absurd (hz.2 hc) e
      | some c =>
        obtain ⟨k1, k2⟩ := h.others p (fun hq => hpp p hq rfl) c hc
        refine ⟨c, rfl, .inr k2, ?_⟩
        simp only [h.jf]
        simpa using k1
  have hreg1 : (s1.cells.map Cell.offset = s.cells.map Cell.offset ∧ s1.offset = s.offset ∨
     s1.cells.map Cell.offset = s.offset :: s.cells.map Cell.offset ∧ s1.offset = s.offset + 12) := by
    simp only [s1]
    split
    · exact .inr ⟨by simp, rfl⟩
    · exact .inl ⟨rfl, rfl⟩
  -- second part: the link
  rw [e1, hdq]
  cases hd : s.dq with
  | none =>
    simp only
    refine ⟨⟨hcells1, hk, rfl, ⟨[], rfl, by simp, hl⟩, fun q hq => hok1 q hq (by simp [hd]), hhere1⟩, hmono1, hreg1⟩
  | some q0 =>
    simp only
    obtain ⟨g1, g2, c0, g3, g4, g5⟩ := h.prev q0 hd
    have hq0 := hpp q0 hd
    let f : Cell → Cell := fun c => if c.suffix = q0 then { c with next := cellOffset s1.cells p } else c
    have hf : ∀ c, (f c).suffix = c.suffix := by intro c; simp only [f]; split <;> rfl
    have hfo : ∀ c, (f c).offset = c.offset := by intro c; simp only [f]; split <;> rfl
    have hoff : ∀ q, cellOffset (s1.cells.map f) q = cellOffset s1.cells q := by
      intro q
      rw [cellOffset_eq, cellOffset_eq, cellAt_map hf]
      cases cellAt s1.cells q with
      | none => rfl
      | some c => simp [hfo]
    have hlk : ∀ q y, Linked s1.cells q y → Linked (s1.cells.map f) q y := by
      intro q y hy
      unfold Linked
      rw [hoff]
      exact hy
    have hfn : ∀ q c, q ≠ q0 → cellAt s1.cells q = some c → f c = c := by
      intro q c hq hc
      simp only [f]
      rw [if_neg]
      rw [(cellAt_mem hc).2]; exact hq
    have hmaps : (s1.cells.map f).map Cell.offset = s1.cells.map Cell.offset := by
      rw [List.map_map]
      apply List.map_congr_left
      intro c _
      exact hfo c
    refine ⟨⟨?_, hk, rfl, ⟨[], rfl, by simp, hl⟩, ?_, ?_⟩, ?_, ?_⟩
    · intro c hc
      obtain ⟨c', hc', rfl⟩ := List.mem_map.1 hc
      rw [show (if c'.suffix = q0 then { c' with next := cellOffset s1.cells p } else c') = f c' from rfl, hf, hfo]
      exact hcells1 c' hc'
    · intro q hq c hc
      have hc : cellAt (s1.cells.map f) q = some c := hc
      rw [cellAt_map hf] at hc
      obtain ⟨c', hc', rfl⟩ := Option.map_eq_some_iff.1 hc
      by_cases e : q = q0
      · subst e
        have hs : c'.suffix = q := (cellAt_mem hc').2
        rw [hat1 q hq] at hc'
        rw [g3] at hc'
        cases hc'
        have ef : f c0 = { c0 with next := cellOffset s1.cells p } := by simp only [f]; rw [if_pos hs]
        rw [ef]
        refine ⟨g4, ?_⟩
        unfold Linked
        simp only [g2]
        exact ⟨(hoff p).symm, fun _ => by rw [show cellOffset _ p = cellOffset (s1.cells.map f) p from rfl, hoff]; exact hoff1⟩
      · rw [hfn q c' e hc']
        obtain ⟨k1, k2⟩ := hok1 q hq (by rw [hd]; simpa using Ne.symm e) c' hc'
        exact ⟨k1, hlk _ _ k2⟩
    · obtain ⟨c, k1, k2, k3⟩ := hhere1
      refine ⟨c, ?_, k2.imp id (hlk _ _), ?_⟩
      · show cellAt (s1.cells.map f) p = some c
        rw [cellAt_map hf, k1, Option.map_some, hfn p c (Ne.symm hq0) k1]
      · simp only
        cases hj : s1.j with
        | false => rw [hj] at k3; exact k3
        | true =>
          rw [hj] at k3
          simp only [if_true] at k3 ⊢
          show (s1.cells.map f).head? = some c
          rw [List.head?_map, k3, Option.map_some, hfn p c (Ne.symm hq0) k1]
    · intro q hq
      show cellOffset (s1.cells.map f) q = _
      rw [hoff, hmono1 q hq]
    · show (s1.cells.map f).map Cell.offset = _ ∧ _ ∨ (s1.cells.map f).map Cell.offset = _ ∧ _
      rw [hmaps]
      exact hreg1

end Verif.MkTable
