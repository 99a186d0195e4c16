import Verif.Proofs.MkWrite

namespace Verif.MkTable
open Verif.Engine (Status Datum Codec)
open Verif.Spec.Table (datums)

theorem statusOf_code (st : Status) : statusOf (statusCode st) = st := by cases st <;> rfl

theorem flatten_chunk (l : List (List Nat)) (h : ∀ x ∈ l, x.length = 4) (i : Nat) (hi : i < l.length) :
    ∃ a b, l.flatten = a ++ l[i] ++ b ∧ a.length = 4 * i := by
  induction l generalizing i with
  | nil => simp at hi
  | cons x l ih =>
    cases i with
    | zero => exact ⟨[], l.flatten, by simp, rfl⟩
    | succ i =>
      obtain ⟨a, b, h1, h2⟩ := ih (fun y hy => h y (by simp [hy])) i (by simpa using hi)
      refine ⟨x ++ a, b, ?_, by rw [List.length_append, h2, h x (by simp)]; omega⟩
      rw [List.flatten_cons, h1]
      simp

/-- What is read of a write. -/
theorem image_in (A : Arena) {w : Nat × List Nat} (hw : w ∈ (emit A).writes) : ∀ i, i < w.2.length → image A (w.1 + i) = w.2.getD i 0 := by
  intro i hi
  have := (emit_spec A).lay.apart
  simp only [List.map_nil, List.append_nil] at this
  exact file_in this hw hi

theorem write_below (A : Arena) {w : Nat × List Nat} (hw : w ∈ (emit A).writes) : w.1 + w.2.length ≤ (emit A).offset := by
  have := (emit_spec A).lay.below (region w)
  simp only [List.map_nil, List.append_nil] at this
  exact this (List.mem_map_of_mem hw)

structure ReadState (A : Arena) (z : Nat → Nat) (k : Nat) (b : Nat) : Prop where
  status : z (16 * k) = statusCode (A.node k).status
  data : get32 z (16 * k + 4) = cellOffset (writeStates A).cells (A.node k).data
  beg : get16 z (16 * k + 8) = (A.node k).beg
  fin : get16 z (16 * k + 10) = (A.node k).fin
  base : get32 z (16 * k + 12) = b
  array : (A.node k).hasBase = true → (b, arrayOf (A.node k)) ∈ (emit A).writes

theorem cell_lt {A : Arena} (hsz : (emit A).offset < 4294967296) (p : List Nat) : cellOffset (writeStates A).cells p < 4294967296 := by
  rw [cellOffset_eq]
  cases e : cellAt (writeStates A).cells p with
  | none => simp
  | some c =>
    have hm := (cellAt_mem e).1
    rcases (emit_spec A).done c hm with h | ⟨o, h, _⟩
    · simp at h
    · have := write_below A h
      simp only at this
      simp only [Option.map_some, Option.getD_some]
      omega

theorem read_state {A : Arena} (hg : A.Good) (hsz : (emit A).offset < 4294967296) {k : Nat} (hk : k < A.count) :
    ∃ b, ReadState A (image A) k b := by
  have hS := emit_spec A
  obtain ⟨b0, h1, h2, _⟩ := writeStates_spec.states k hk
  have h1' := image_in A (hS.old _ h1)
  have hb : (A.node k).beg < 65536 := by have := hg.small k; omega
  have hf : (A.node k).fin < 65536 := by have := hg.fin k; omega
  have hmem := hS.old _ h1
  simp only [stateRecord_length] at h1'
  let b := if (A.node k).hasBase then b0 else b0 % 4294967296
  have hb0 : get32 (image A) (16 * k + 12) = b0 % 4294967296 := by
    have hx : ∀ i, i < 4 → image A (16 * k + 12 + i) = (le32 (b0 % 4294967296)).getD i 0 := by
      have := part (z := image A) (o := 16 * k) (m := 16 * k + 12) (a := [statusCode (A.node k).status, 0, 0, 0] ++ le32 (cellOffset (writeStates A).cells (A.node k).data) ++ le16 (A.node k).beg ++ le16 (A.node k).fin)
        (x := le32 b0) (b := []) (by rw [stateRecord_length]; exact h1') (by simp [stateRecord]) rfl
      intro i hi
      rw [this i (by simpa [le32] using hi)]
      have : le32 b0 = le32 (b0 % 4294967296) := by
        simp only [le32, List.cons.injEq, and_true]
        omega
      rw [this]
    exact get32_le32 (Nat.mod_lt _ (by omega)) hx
  refine ⟨b0 % 4294967296, ?_, ?_, ?_, ?_, hb0, ?_⟩
  · have := h1' 0 (by omega)
    simpa [stateRecord] using this
  · refine get32_le32 (cell_lt hsz _) ?_
    exact part (o := 16 * k) (a := [statusCode (A.node k).status, 0, 0, 0]) (x := le32 _) (b := le16 (A.node k).beg ++ le16 (A.node k).fin ++ le32 b0)
      (by rw [stateRecord_length]; exact h1') (by simp [stateRecord]) rfl
  · refine get16_le16 hb ?_
    exact part (o := 16 * k) (a := [statusCode (A.node k).status, 0, 0, 0] ++ le32 (cellOffset (writeStates A).cells (A.node k).data)) (x := le16 _)
      (b := le16 (A.node k).fin ++ le32 b0) (by rw [stateRecord_length]; exact h1') (by simp [stateRecord]) rfl
  · refine get16_le16 hf ?_
    exact part (o := 16 * k) (a := [statusCode (A.node k).status, 0, 0, 0] ++ le32 (cellOffset (writeStates A).cells (A.node k).data) ++ le16 (A.node k).beg) (x := le16 _)
      (b := le32 b0) (by rw [stateRecord_length]; exact h1') (by simp [stateRecord]) rfl
  · intro hbase
    have hw := hS.old _ (h2 hbase)
    have := write_below A hw
    simp only at this
    rw [Nat.mod_eq_of_lt (by omega)]
    exact hw

theorem read_next {A : Arena} (hg : A.Good) (hsz : (emit A).offset < 4294967296) {k : Nat} (hk : k < A.count) (c : Nat) :
    nextAt (image A) (16 * k) c = match (A.node k).kids c with | some j => 16 * j | none => 0 := by
  obtain ⟨b, h⟩ := read_state hg hsz hk
  simp only [nextAt, h.beg, h.fin, h.base]
  by_cases hr : (A.node k).beg ≤ c ∧ c < (A.node k).fin
  · rw [if_pos hr]
    have hbase : (A.node k).hasBase = true := by
      cases e : (A.node k).hasBase with
      | true => rfl
      | false => have := hg.nobase k e; omega
    have hw := h.array hbase
    have hin := image_in A hw
    simp only at hin
    let l := (List.range ((A.node k).fin - (A.node k).beg)).map fun i =>
      match (A.node k).kids ((A.node k).beg + i) with
      | some k => le32 (16 * k)
      | none => le32 0
    have hl4 : ∀ x ∈ l, x.length = 4 := by
      intro x hx
      obtain ⟨i, _, rfl⟩ := List.mem_map.1 hx
      cases (A.node k).kids ((A.node k).beg + i) <;> rfl
    have hlen : c - (A.node k).beg < l.length := by simp [l]; omega
    obtain ⟨x, y, e1, e2⟩ := flatten_chunk l hl4 _ hlen
    have hli : l[c - (A.node k).beg] = le32 (match (A.node k).kids c with | some j => 16 * j | none => 0) := by
      simp only [l, List.getElem_map, List.getElem_range]
      rw [show (A.node k).beg + (c - (A.node k).beg) = c by omega]
      cases (A.node k).kids c <;> rfl
    refine get32_le32 ?_ ?_
    · cases hkc : (A.node k).kids c with
      | none => simp
      | some j =>
        have h1 := (hg.range _ _ _ hkc).2.2
        have h2 := (emit_spec A).lay.base
        simp only; omega
    · have := part (z := image A) (o := b) (m := b + (c - (A.node k).beg) * 4) (l := arrayOf (A.node k)) hin e1 (by rw [e2]; omega)
      rw [hli] at this
      exact this
  · rw [if_neg hr]
    cases hkc : (A.node k).kids c with
    | none => rfl
    | some j => exact absurd (hg.bounds _ _ _ hkc).2 hr

theorem read_status {A : Arena} (hg : A.Good) (hsz : (emit A).offset < 4294967296) {k : Nat} (hk : k < A.count) :
    statusOf (image A (16 * k)) = (A.node k).status := by
  obtain ⟨b, h⟩ := read_state hg hsz hk
  rw [h.status, statusOf_code]

theorem datums_nil : datums [] = [] := by rw [datums, dif_pos rfl]

theorem datums_cons {p : List Nat} (h : p ≠ []) : datums p = firstDatum p :: datums (after p) := by
  rw [datums, dif_neg h]; rfl

theorem read_cells {A : Arena} (hsz : (emit A).offset < 4294967296) (fuel : Nat) : ∀ p : List Nat,
    (p ≠ [] → cellOffset (writeStates A).cells p ≠ 0) → (datums p).length ≤ fuel →
    readData (image A) fuel (cellOffset (writeStates A).cells p) = datums p := by
  have hW := writeStates_spec (A := A)
  have hS := emit_spec A
  induction fuel with
  | zero =>
    intro p _ h
    have : datums p = [] := List.eq_nil_of_length_eq_zero (by omega)
    rw [this]; rfl
  | succ fuel ih =>
    intro p hp hlen
    by_cases hn : p = []
    · subst hn
      rw [datums_nil, offset_nil hW.cells]
      simp [readData]
    · have hp := hp hn
      cases hc : cellAt (writeStates A).cells p with
      | none => rw [cellOffset_eq, hc] at hp; simp at hp
      | some c =>
        have hoff : cellOffset (writeStates A).cells p = c.offset := by rw [cellOffset_eq, hc]; rfl
        rw [hoff] at hp ⊢
        obtain ⟨h1, h2, h3⟩ := hW.ok p c hc
        obtain ⟨hm, hsuf⟩ := cellAt_mem hc
        rcases hS.done c hm with h | ⟨o, hw, hst⟩
        · simp at h
        · rw [hsuf] at hst
          have hin := image_in A hw
          have hbel := write_below A hw
          simp only at hin hbel
          have hlen12 : (le32 o ++ le32 c.len ++ le32 c.next).length = 12 := by simp [le32]
          have hnext : c.next < 4294967296 := by rw [h2]; exact cell_lt hsz _
          have hclen : c.len < 4294967296 := by
            rw [h1]
            rcases hst with e | ⟨bb, hh, k1, k2, k3⟩
            · rw [e]; simp
            · have := write_below A k1
              have := k2.length_le
              simp only at *
              omega
          rw [datums_cons hn]
          simp only [readData]
          rw [if_neg hp]
          have g2 : get32 (image A) (c.offset + 4) = c.len :=
            get32_le32 hclen (part (o := c.offset) (a := le32 o) (x := le32 c.len) (b := le32 c.next) hin rfl rfl)
          have g3 : get32 (image A) (c.offset + 8) = c.next :=
            get32_le32 hnext (part (o := c.offset) (a := le32 o ++ le32 c.len) (x := le32 c.next) (b := []) hin (by simp) rfl)
          rw [g2, g3, h2, h1]
          congr 1
          · rcases hst with e | ⟨bb, hh, k1, k2, k3⟩
            · rw [e]; rfl
            · have hbb := write_below A k1
              have hle := k2.length_le
              simp only at hbb
              have g1 : get32 (image A) c.offset = o :=
                get32_le32 (by omega) (part (o := c.offset) (a := []) (x := le32 o) (b := le32 c.len ++ le32 c.next) hin (by simp) rfl)
              rw [g1]
              obtain ⟨pre, hpre⟩ := k2
              have hin2 := image_in A k1
              simp only at hin2
              have := part (z := image A) (o := bb) (m := o) (a := pre) (x := firstDatum p) (b := []) hin2 (by simp [hpre])
                (by rw [k3, ← hpre]; simp)
              apply List.ext_getElem
              · simp
              · intro i hi1 hi2
                simp only [List.getElem_map, List.getElem_range]
                rw [this i hi2]
                simp [hi2]
          · apply ih
            · exact h3
            · rw [datums_cons hn] at hlen
              simpa using hlen

theorem read_data {A : Arena} (hg : A.Good) (hsz : (emit A).offset < 4294967296) {k : Nat} (hk : k < A.count)
    (hd : (datums (A.node k).data).length ≤ 1024) : readData (image A) 1024 (get32 (image A) (16 * k + 4)) = datums (A.node k).data := by
  obtain ⟨b, h⟩ := read_state hg hsz hk
  rw [h.data]
  obtain ⟨_, _, _, h3⟩ := writeStates_spec.states k hk
  exact read_cells hsz 1024 _ h3 hd

end Verif.MkTable
