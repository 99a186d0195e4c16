import Verif.Proofs.MkCells2

namespace Verif.MkTable
open Verif.Engine (Status Datum Codec)

theorem stateRecord_length (st : Status) (d b f o : Nat) : (stateRecord st d b f o).length = 16 := by
  simp [stateRecord, le32, le16]

theorem flatten_length4 (l : List (List Nat)) (h : ∀ x ∈ l, x.length = 4) : l.flatten.length = 4 * l.length := by
  induction l with
  | nil => rfl
  | cons x l ih =>
    rw [List.flatten_cons, List.length_append, ih (fun y hy => h y (by simp [hy])), h x (by simp), List.length_cons]
    omega

theorem arrayOf_length (n : Node) : (arrayOf n).length = 4 * (n.fin - n.beg) := by
  unfold arrayOf
  rw [flatten_length4, List.length_map, List.length_range]
  intro x hx
  obtain ⟨i, _, rfl⟩ := List.mem_map.1 hx
  cases n.kids (n.beg + i) <;> rfl

/-- After the first `n` states. -/
structure Written (A : Arena) (n : Nat) (w : Out) : Prop where
  lay : Lay (16 * A.count) (w.writes.map region) w.cells w.offset
  cls : ∀ y ∈ w.writes.map region, (∃ i, i < n ∧ y = (16 * i, 16)) ∨ 16 * A.count ≤ y.1
  cells : Cells (16 * A.count) w.cells
  ok : ∀ q, Ok w.cells q
  states : ∀ i, i < n → ∃ b, (16 * i, stateRecord (A.node i).status (cellOffset w.cells (A.node i).data) (A.node i).beg (A.node i).fin b) ∈ w.writes ∧
    ((A.node i).hasBase = true → (b, arrayOf (A.node i)) ∈ w.writes) ∧
    ((A.node i).data ≠ [] → cellOffset w.cells (A.node i).data ≠ 0)

theorem Lay.record {base n : Nat} {a : List Reg} {A : List Cell} {o : Nat} (h : Lay base a A o) (hc : Cells base A)
    (hn : 16 * n + 16 ≤ base) (hcls : ∀ y ∈ a, (∃ i, i < n ∧ y = (16 * i, 16)) ∨ base ≤ y.1) : Lay base (a ++ [(16 * n, 16)]) A o := by
  have hb := h.below
  have hbase := h.base
  refine ⟨?_, ?_, hbase⟩
  · rw [List.append_assoc]
    apply pw_insert h.apart
    intro y hy
    rcases List.mem_append.1 hy with hy | hy
    · rcases hcls y hy with ⟨i, hi, rfl⟩ | hy
      · right; simp only; omega
      · left; simp only; omega
    · obtain ⟨c, hc', rfl⟩ := List.mem_map.1 hy
      have := (hc c hc').1
      left; simp only [cellReg]; omega
  · intro y hy
    simp only [List.mem_append, List.mem_singleton] at hy hb
    rcases hy with (hy | rfl) | hy
    · exact hb y (.inl hy)
    · simp only; omega
    · exact hb y (.inr hy)

theorem writeState_spec {A : Arena} {n : Nat} (hn : n < A.count) {w : Out} (h : Written A n w) :
    Written A (n + 1) (writeState w n (A.node n)) ∧ w.offset ≤ (writeState w n (A.node n)).offset := by
  have hb : 0 < 16 * A.count := by omega
  have hB : Between (16 * A.count) ({ offset := w.offset, cells := w.cells } : Scan) (A.node n).data :=
    ⟨h.cells, rfl, rfl, rfl, fun q _ => h.ok q, fun q hq => by simp at hq⟩
  obtain ⟨hD, hne⟩ := (run_spec hb (w.writes.map region) (A.node n).data ({ offset := w.offset, cells := w.cells } : Scan) h.lay).1 hB
  unfold writeState
  generalize hs : Scan.run ({ offset := w.offset, cells := w.cells } : Scan) (A.node n).data = s at hD hne
  have hnil : cellOffset w.cells [] = 0 := offset_nil h.cells
  have hnil' : cellOffset s.cells [] = 0 := offset_nil hD.cells
  have hdata : (if (A.node n).data = [] then 0 else cellOffset s.cells (A.node n).data) = cellOffset s.cells (A.node n).data := by
    split
    · rename_i e; rw [e, hnil']
    · rfl
  simp only [hdata]
  have hmono : ∀ i, i < n → cellOffset s.cells (A.node i).data = cellOffset w.cells (A.node i).data := by
    intro i hi
    obtain ⟨_, _, _, h3⟩ := h.states i hi
    by_cases e : (A.node i).data = []
    · rw [e, hnil, hnil']
    · exact hD.mono _ (h3 e)
  have hold : ∀ (ws : List (Nat × List Nat)) i, i < n → ∃ b, (16 * i, stateRecord (A.node i).status (cellOffset s.cells (A.node i).data)
      (A.node i).beg (A.node i).fin b) ∈ w.writes ++ ws ∧
      ((A.node i).hasBase = true → (b, arrayOf (A.node i)) ∈ w.writes ++ ws) ∧
      ((A.node i).data ≠ [] → cellOffset s.cells (A.node i).data ≠ 0) := by
    intro ws i hi
    obtain ⟨b, h1, h2, h3⟩ := h.states i hi
    rw [hmono i hi]
    exact ⟨b, List.mem_append_left _ h1, fun e => List.mem_append_left _ (h2 e), h3⟩
  have hcls := h.cls
  have hcls' : ∀ y ∈ w.writes.map region, (∃ i, i < n + 1 ∧ y = (16 * i, 16)) ∨ 16 * A.count ≤ y.1 := by
    intro y hy
    rcases hcls y hy with ⟨i, hi, e⟩ | hy
    · exact .inl ⟨i, by omega, e⟩
    · exact .inr hy
  by_cases hbase : (A.node n).hasBase = true
  · rw [if_pos hbase]
    refine ⟨⟨?_, ?_, hD.cells, hD.ok, ?_⟩, ?_⟩
    · simp only [List.map_append, List.map_cons, List.map_nil, region, arrayOf_length, stateRecord_length]
      rw [show [(s.offset, 4 * ((A.node n).fin - (A.node n).beg)), (16 * n, 16)] =
        [(s.offset, 4 * ((A.node n).fin - (A.node n).beg))] ++ [(16 * n, 16)] by rfl, ← List.append_assoc]
      refine (hD.lay.add _).record hD.cells (by omega) ?_
      intro y hy
      simp only [List.mem_append, List.mem_singleton] at hy
      rcases hy with hy | rfl
      · exact hcls y hy
      · exact .inr hD.lay.base
    · simp only [List.map_append, List.map_cons, List.map_nil, region, arrayOf_length, stateRecord_length]
      intro y hy
      simp only [List.mem_append, List.mem_cons, List.not_mem_nil, or_false] at hy
      rcases hy with hy | rfl | rfl
      · exact hcls' y hy
      · exact .inr hD.lay.base
      · exact .inl ⟨n, by omega, rfl⟩
    · intro i hi
      by_cases e : i = n
      · subst e
        exact ⟨s.offset, by simp, fun _ => by simp, hne⟩
      · exact hold _ i (by omega)
    · have := hD.le
      simp only at this ⊢
      omega
  · rw [if_neg hbase]
    refine ⟨⟨?_, ?_, hD.cells, hD.ok, ?_⟩, ?_⟩
    · simp only [List.map_append, List.map_cons, List.map_nil, region, stateRecord_length]
      exact hD.lay.record hD.cells (by omega) hcls
    · simp only [List.map_append, List.map_cons, List.map_nil, region, stateRecord_length]
      intro y hy
      simp only [List.mem_append, List.mem_cons, List.not_mem_nil, or_false] at hy
      rcases hy with hy | rfl
      · exact hcls' y hy
      · exact .inl ⟨n, by omega, rfl⟩
    · intro i hi
      by_cases e : i = n
      · subst e
        exact ⟨0, by simp, fun e => absurd e hbase, hne⟩
      · exact hold _ i (by omega)
    · have := hD.le
      simp only at this ⊢
      omega

theorem writeStates_spec {A : Arena} : Written A A.count (writeStates A) := by
  have : ∀ n, n ≤ A.count → Written A n ((List.range n).foldl (fun w i => writeState w i (A.node i)) { offset := 16 * A.count }) := by
    intro n
    induction n with
    | zero =>
      intro _
      refine ⟨⟨by simp, by simp, Nat.le_refl _⟩, by simp, fun c hc => by simp at hc, ?_, fun i hi => by omega⟩
      intro q c hc
      simp [cellAt] at hc
    | succ n ih =>
      intro hn
      rw [List.range_succ, List.foldl_append, List.foldl_cons, List.foldl_nil]
      exact (writeState_spec hn (ih (by omega))).1
  exact this _ (Nat.le_refl _)

/-! ### The cells and their bytes -/

theorem heads_spec (bs : List (List Nat)) : (∀ s h, heads bs s = some h → s <:+ h) ∧ (∀ b ∈ bs, (heads bs b).isSome) := by
  have : ∀ (bs : List (List Nat)) (h0 : List Nat → Option (List Nat)), (∀ s h, h0 s = some h → s <:+ h) →
      (∀ s h, (bs.foldl setHead h0) s = some h → s <:+ h) ∧ (∀ b, b ∈ bs ∨ (h0 b).isSome → ((bs.foldl setHead h0) b).isSome) := by
    intro bs
    induction bs with
    | nil => intro h0 hh; exact ⟨hh, fun b hb => by simpa using hb⟩
    | cons x bs ih =>
      intro h0 hh
      rw [List.foldl_cons]
      have hx : ∀ s h, setHead h0 x s = some h → s <:+ h := by
        intro s h
        unfold setHead
        split
        · dsimp only
          split
          · rename_i e
            intro e2
            cases e2
            rcases e with rfl | e
            · exact List.suffix_refl _
            · exact List.isSuffixOf_iff_suffix.1 e.2
          · exact hh s h
        · exact hh s h
      have hy : ∀ b, (b = x ∨ (h0 b).isSome) → (setHead h0 x b).isSome := by
        intro b hb
        unfold setHead
        split
        · dsimp only
          split
          · rfl
          · rename_i e
            rcases hb with rfl | hb
            · exact absurd (.inl rfl) e
            · exact hb
        · rename_i e
          rcases hb with rfl | hb
          · cases hb : h0 b with
            | none => simp [hb] at e
            | some y => rfl
          · exact hb
      obtain ⟨k1, k2⟩ := ih (setHead h0 x) hx
      refine ⟨k1, ?_⟩
      intro b hb
      apply k2
      rcases hb with hb | hb
      · rcases List.mem_cons.1 hb with rfl | hb
        · exact .inr (hy b (.inl rfl))
        · exact .inl hb
      · exact .inr (hy b (.inr hb))
  obtain ⟨k1, k2⟩ := this bs (fun _ => none) (by intro s h e; simp at e)
  exact ⟨k1, fun b hb => k2 b (.inl hb)⟩

/-- The bytes `b` are found at `o` in the writes. -/
def Stored (ws : List (Nat × List Nat)) (b : List Nat) (o : Nat) : Prop :=
  b = [] ∨ ∃ base h, (base, h) ∈ ws ∧ b <:+ h ∧ o = base + (h.length - b.length)

theorem Stored.more {ws : List (Nat × List Nat)} {b : List Nat} {o : Nat} (h : Stored ws b o) (vs : List (Nat × List Nat)) : Stored (ws ++ vs) b o := by
  rcases h with h | ⟨base, x, h1, h2⟩
  · exact .inl h
  · exact .inr ⟨base, x, List.mem_append_left _ h1, h2⟩

/-- After some cells, with `cs` left. -/
structure Stuffed (base : Nat) (old : List (Nat × List Nat)) (cells cs : List Cell) (w : Bytes) : Prop where
  lay : Lay base (w.writes.map region) cs w.offset
  old : ∀ x ∈ old, x ∈ w.writes
  ats : ∀ s, w.at_ s ≠ 0 → Stored w.writes s (w.at_ s)
  done : ∀ c ∈ cells, c ∈ cs ∨ ∃ o, (c.offset, le32 o ++ le32 c.len ++ le32 c.next) ∈ w.writes ∧ Stored w.writes (firstDatum c.suffix) o

theorem writeCell_spec {base : Nat} {old : List (Nat × List Nat)} {cells cs : List Cell} {c : Cell} {w : Bytes}
    {head : List Nat → Option (List Nat)} (hh1 : ∀ s h, head s = some h → s <:+ h) (hh2 : (head (firstDatum c.suffix)).isSome)
    (h : Stuffed base old cells (c :: cs) w) : Stuffed base old cells cs (writeCell head w c) ∧ w.offset ≤ (writeCell head w c).offset := by
  obtain ⟨hd, hhd⟩ := Option.isSome_iff_exists.1 hh2
  have hsuf := hh1 _ _ hhd
  -- the bytes
  let w1 : Bytes := if w.at_ (firstDatum c.suffix) = 0 then
      { offset := w.offset + hd.length
        at_ := fun s => if s ≠ [] ∧ s.isSuffixOf hd then w.offset + (hd.length - s.length) else w.at_ s
        writes := w.writes ++ [(w.offset, hd)] }
    else w
  have e : writeCell head w c = { w1 with writes := w1.writes ++ [(c.offset, le32 (w1.at_ (firstDatum c.suffix)) ++ le32 c.len ++ le32 c.next)] } := by
    simp only [writeCell, hhd, Option.getD_some]
    rfl
  have h1 : Stuffed base old cells (c :: cs) w1 ∧ w.offset ≤ w1.offset ∧ Stored w1.writes (firstDatum c.suffix) (w1.at_ (firstDatum c.suffix)) := by
    by_cases e0 : w.at_ (firstDatum c.suffix) = 0
    · have ew : w1 = { offset := w.offset + hd.length
                       at_ := fun s => if s ≠ [] ∧ s.isSuffixOf hd then w.offset + (hd.length - s.length) else w.at_ s
                       writes := w.writes ++ [(w.offset, hd)] } := by
        simp only [w1]; rw [if_pos e0]
      rw [ew]
      refine ⟨⟨?_, ?_, ?_, ?_⟩, by simp, ?_⟩
      · have := h.lay.add hd.length
        simpa [region] using this
      · intro x hx; exact List.mem_append_left _ (h.old x hx)
      · intro s hs
        simp only at hs ⊢
        by_cases e1 : s ≠ [] ∧ s.isSuffixOf hd
        · rw [if_pos e1]
          exact .inr ⟨w.offset, hd, by simp, List.isSuffixOf_iff_suffix.1 e1.2, rfl⟩
        · rw [if_neg e1] at hs ⊢
          exact (h.ats s hs).more _
      · intro x hx
        rcases h.done x hx with hx | ⟨o, k1, k2⟩
        · exact .inl hx
        · exact .inr ⟨o, List.mem_append_left _ k1, k2.more _⟩
      · by_cases e1 : firstDatum c.suffix = []
        · exact .inl e1
        · simp only
          rw [if_pos ⟨e1, List.isSuffixOf_iff_suffix.2 hsuf⟩]
          exact .inr ⟨w.offset, hd, by simp, hsuf, rfl⟩
    · have ew : w1 = w := by simp only [w1]; rw [if_neg e0]
      rw [ew]
      exact ⟨h, Nat.le_refl _, h.ats _ e0⟩
  obtain ⟨h1, hle, hst⟩ := h1
  rw [e]
  refine ⟨⟨?_, ?_, ?_, ?_⟩, hle⟩
  · have hl := h1.lay
    have er : region (c.offset, le32 (w1.at_ (firstDatum c.suffix)) ++ le32 c.len ++ le32 c.next) = cellReg c := by
      simp [region, cellReg, le32]
    refine ⟨?_, ?_, hl.base⟩
    · have := hl.apart
      simp only [List.map_append, List.map_cons, List.map_nil, er, List.append_assoc]
      exact this
    · have := hl.below
      simp only [List.map_append, List.map_cons, List.map_nil, er, List.append_assoc]
      exact this
  · intro x hx; exact List.mem_append_left _ (h1.old x hx)
  · intro s hs; exact (h1.ats s hs).more _
  · intro x hx
    rcases h1.done x hx with hx | ⟨o, k1, k2⟩
    · rcases List.mem_cons.1 hx with rfl | hx
      · exact .inr ⟨w1.at_ (firstDatum x.suffix), by simp, hst.more _⟩
      · exact .inl hx
    · exact .inr ⟨o, List.mem_append_left _ k1, k2.more _⟩

theorem foldl_writeCell {base : Nat} {old : List (Nat × List Nat)} {cells : List Cell} {head : List Nat → Option (List Nat)}
    (hh1 : ∀ s h, head s = some h → s <:+ h) (cs : List Cell) : ∀ w : Bytes, (∀ c ∈ cs, (head (firstDatum c.suffix)).isSome) →
    Stuffed base old cells cs w → Stuffed base old cells [] (cs.foldl (writeCell head) w) ∧ w.offset ≤ (cs.foldl (writeCell head) w).offset := by
  induction cs with
  | nil => intro w _ h; exact ⟨h, Nat.le_refl _⟩
  | cons c cs ih =>
    intro w hh2 h
    obtain ⟨k1, k2⟩ := writeCell_spec hh1 (hh2 c (by simp)) h
    obtain ⟨m1, m2⟩ := ih _ (fun x hx => hh2 x (by simp [hx])) k1
    exact ⟨m1, by rw [List.foldl_cons]; omega⟩

theorem emit_spec (A : Arena) : Stuffed (16 * A.count) (writeStates A).writes (writeStates A).cells [] (emit A) := by
  have h := writeStates_spec (A := A)
  obtain ⟨k1, k2⟩ := heads_spec ((writeStates A).cells.reverse.map fun c => firstDatum c.suffix)
  refine (foldl_writeCell k1 (writeStates A).cells.reverse { offset := (writeStates A).offset, writes := (writeStates A).writes } ?_ ?_).1
  · intro c hc
    exact k2 _ (List.mem_map.2 ⟨c, hc, rfl⟩)
  · refine ⟨⟨?_, ?_, h.lay.base⟩, fun x hx => hx, by simp, fun c hc => .inl (by simpa using hc)⟩
    · simp only
      refine (List.Perm.pairwise_iff (fun h => Apart.symm h) ?_).1 h.lay.apart
      rw [List.map_reverse]
      exact (List.reverse_perm _).symm.append_left _
    · intro y hy
      apply h.lay.below y
      simpa using hy

end Verif.MkTable
