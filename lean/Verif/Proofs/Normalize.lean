import Verif.Spec.Normalize
import Verif.Props.Nfc

/-! Normalisation forms: decomposing again, composing and decomposing, one pass of composition or two. -/

namespace Verif.Spec
open Verif.Props

/-! ### Sorting -/

theorem combining_lt (d : Datum) : combining d < 256 := by
  unfold combining valueIn
  cases h : char? d with
  | none => simp
  | some u =>
    simp only [Option.bind_some]
    cases hf : List.find? (fun r => decide (In u r)) Range.cccTable with
    | none => simp
    | some r =>
      have := ccc_bounds r (List.mem_of_find?_eq_some hf)
      simp; omega

theorem byClass_congr (cls : Datum → Nat) {r r' : List Datum} (h : ∀ c, (r.filter fun d => cls d == c) = r'.filter fun d => cls d == c) :
    byClass cls r = byClass cls r' := by
  unfold byClass
  congr 1
  funext c
  exact h c

theorem reorderFrom_congr (cls : Datum → Nat) : ∀ (ds : List Datum) {r r' : List Datum},
    (∀ c, (r.filter fun d => cls d == c) = r'.filter fun d => cls d == c) → reorderFrom cls r ds = reorderFrom cls r' ds
  | [], _, _, h => byClass_congr cls h
  | d :: ds, r, r', h => by
    rw [reorderFrom, reorderFrom, byClass_congr cls h]
    split
    · rfl
    · refine reorderFrom_congr cls ds ?_
      intro c; rw [List.filter_append, List.filter_append, h c]

theorem reorderFrom_swap (cls : Datum → Nat) {a b : Datum} (ha : cls a ≠ 0) (hb : cls b ≠ 0) (hab : cls a ≠ cls b) (B : List Datum) :
    ∀ (A r : List Datum), reorderFrom cls r (A ++ a :: b :: B) = reorderFrom cls r (A ++ b :: a :: B)
  | [], r => by
    simp only [List.nil_append, reorderFrom, if_neg ha, if_neg hb]
    refine reorderFrom_congr cls B ?_
    intro c
    simp only [List.filter_append, List.append_assoc]
    congr 1
    by_cases h1 : cls a = c <;> by_cases h2 : cls b = c <;> simp [h1, h2]
    exact absurd (h1.trans h2.symm) hab
  | d :: A, r => by
    simp only [List.cons_append, reorderFrom]
    rw [reorderFrom_swap cls ha hb hab B A, reorderFrom_swap cls ha hb hab B A]

/-- A datum may be moved over data of other classes. -/
theorem reorder_move (cls : Datum → Nat) {c : Datum} (hc : cls c ≠ 0) (B : List Datum) : ∀ (p A : List Datum),
    (∀ b ∈ p, cls b ≠ 0 ∧ cls b ≠ cls c) → reorder cls (A ++ c :: p ++ B) = reorder cls (A ++ p ++ c :: B)
  | [], A, _ => by simp
  | b :: p, A, h => by
    have hb := h b (by simp)
    have := reorder_move cls hc B p (A ++ [b]) (fun x hx => h x (by simp [hx]))
    simp only [List.append_assoc, List.cons_append, List.nil_append] at this ⊢
    rw [← this]
    exact reorderFrom_swap cls hc hb.1 (fun e => hb.2 e.symm) _ A []

theorem sorted_ext (cls : Datum → Nat) : ∀ {l m : List Datum}, l.Pairwise (fun a b => cls a ≤ cls b) →
    m.Pairwise (fun a b => cls a ≤ cls b) → (∀ c, (l.filter fun d => cls d == c) = m.filter fun d => cls d == c) → l = m
  | [], [], _, _, _ => rfl
  | [], b :: m, _, _, h => by have := h (cls b); simp at this
  | a :: l, [], _, _, h => by have := h (cls a); simp at this
  | a :: l, b :: m, hl, hm, h => by
    have h1 := List.pairwise_cons.1 hl
    have h2 := List.pairwise_cons.1 hm
    have hle : ∀ x ∈ a :: l, cls a ≤ cls x := by
      intro x hx; rcases List.mem_cons.1 hx with rfl | hx
      · exact Nat.le_refl _
      · exact h1.1 x hx
    have hle' : ∀ x ∈ b :: m, cls b ≤ cls x := by
      intro x hx; rcases List.mem_cons.1 hx with rfl | hx
      · exact Nat.le_refl _
      · exact h2.1 x hx
    have ha : a ∈ b :: m := by
      have : a ∈ (b :: m).filter fun d => cls d == cls a := by rw [← h]; simp
      exact (List.mem_filter.1 this).1
    have hb : b ∈ a :: l := by
      have : b ∈ (a :: l).filter fun d => cls d == cls b := by rw [h]; simp
      exact (List.mem_filter.1 this).1
    have he : cls a = cls b := Nat.le_antisymm (hle b hb) (hle' a ha)
    have hh := h (cls a)
    simp only [List.filter_cons, beq_self_eq_true, if_true, ← he, List.cons.injEq] at hh
    obtain ⟨rfl, _⟩ := hh
    congr 1
    refine sorted_ext cls h1.2 h2.2 ?_
    intro c
    have := h c
    simp only [List.filter_cons] at this
    split at this
    · simpa using this
    · exact this

theorem byClass_id {r : List Datum} (hr : r.Pairwise fun a b => combining a ≤ combining b) : byClass combining r = r := by
  refine sorted_ext combining (byClass_sorted combining r) hr ?_
  intro c
  by_cases hc : c < 256
  · exact byClass_stable combining r c hc
  · have e : ∀ l : List Datum, (l.filter fun d => combining d == c) = [] := by
      intro l
      rw [List.filter_eq_nil_iff]
      intro a _
      have := combining_lt a
      simp; omega
    rw [e, e]

theorem InOrder.tail {a : Datum} {l : List Datum} (h : InOrder (a :: l)) : InOrder l := by
  cases l with
  | nil => trivial
  | cons b l => exact h.2

theorem InOrder.pairwise : ∀ {r : List Datum} {ds : List Datum}, InOrder (r ++ ds) → (∀ d ∈ r, combining d ≠ 0) →
    r.Pairwise fun a b => combining a ≤ combining b
  | [], _, _, _ => .nil
  | [a], _, _, _ => by simp
  | a :: b :: r, ds, h, hr => by
    have ih := InOrder.pairwise (r := b :: r) (ds := ds) h.2 (fun x hx => hr x (List.mem_cons_of_mem _ hx))
    have hab : combining a ≤ combining b := by
      rcases h.1 with h | h
      · exact absurd h (hr b (by simp))
      · exact h
    refine List.pairwise_cons.2 ⟨?_, ih⟩
    intro x hx
    rcases List.mem_cons.1 hx with rfl | hx
    · exact hab
    · exact Nat.le_trans hab ((List.pairwise_cons.1 ih).1 x hx)

/-- Data in canonical order are left as they are. -/
theorem reorder_id {ds : List Datum} (h : InOrder ds) : reorder combining ds = ds := by
  have drop : ∀ (r ds : List Datum), InOrder (r ++ ds) → InOrder ds := by
    intro r
    induction r with
    | nil => intro ds h; exact h
    | cons a r ih => intro ds h; exact ih ds h.tail
  have key : ∀ (ds r : List Datum), InOrder (r ++ ds) → (∀ d ∈ r, combining d ≠ 0) → reorderFrom combining r ds = r ++ ds := by
    intro ds
    induction ds with
    | nil =>
      intro r h hr
      rw [reorderFrom, byClass_id (InOrder.pairwise (ds := []) h hr)]; simp
    | cons d ds ih =>
      intro r h hr
      rw [reorderFrom]
      split
      · rw [byClass_id (InOrder.pairwise h hr), ih [] (drop _ _ h).tail (by simp)]; simp
      · rename_i h0
        rw [ih (r ++ [d]) (by simpa using h) ?_]
        · simp
        · intro x hx
          rcases List.mem_append.1 hx with hx | hx
          · exact hr x hx
          · simp at hx; subst hx; exact h0
  exact key ds [] h (by simp)

theorem byClass_mem (r : List Datum) (d : Datum) : d ∈ byClass combining r ↔ d ∈ r := by
  have := combining_lt d
  simp only [byClass, List.mem_flatMap, List.mem_range, List.mem_filter, beq_iff_eq]
  exact ⟨fun ⟨_, _, h, _⟩ => h, fun h => ⟨_, this, h, rfl⟩⟩

theorem reorder_mem (ds : List Datum) (d : Datum) : d ∈ reorder combining ds ↔ d ∈ ds := by
  have key : ∀ (ds r : List Datum), d ∈ reorderFrom combining r ds ↔ d ∈ r ∨ d ∈ ds := by
    intro ds
    induction ds with
    | nil => intro r; simp [reorderFrom, byClass_mem]
    | cons x ds ih =>
      intro r
      rw [reorderFrom]
      split
      · simp [byClass_mem, ih]
      · rw [ih]; simp [or_assoc]
  have := key ds []
  simpa [reorder] using this

theorem reorder_idem (ds : List Datum) : reorder combining (reorder combining ds) = reorder combining ds :=
  reorder_id (C30_inOrder ds)

/-! ### Form D -/

variable {t : Datum → Option (List Datum)} {comb : Datum → Datum → Option Datum}

/-- Decompositions are fully expanded: what a decomposition puts out does not decompose. -/
def Expanded (t : Datum → Option (List Datum)) : Prop := ∀ d v, t d = some v → ∀ x ∈ v, t x = none ∧ isS x = false

/-- The table has nothing to do with the jamo. -/
def JamoFree (t : Datum → Option (List Datum)) : Prop := ∀ n, 0x1100 ≤ n → n < 0x1200 → t (uniDatum n) = none

/-- It does not decompose. -/
def Atom (t : Datum → Option (List Datum)) (d : Datum) : Prop := t d = none ∧ isS d = false

theorem jamo_range {n m : Nat} (hn : 0xAC00 ≤ n ∧ n ≤ 0xD7A3) (hm : m ∈ jamo n) : 0x1100 ≤ m ∧ m < 0x1100 + 256 := by
  obtain ⟨l, v, hl, hv, h | ⟨t, ht, h⟩⟩ := jamo_shape hn
  · rw [h.1] at hm; simp at hm; omega
  · rw [h.1] at hm; simp at hm; omega

theorem isS_chr {d : Datum} (h : isS d = true) : 0xAC00 ≤ chr d ∧ chr d ≤ 0xD7A3 := by
  unfold isS within at h
  split at h
  · rename_i u hu
    rw [chr_some hu]; simpa using h
  · simp at h

/-- The decomposition of one datum. -/
def atoms (t : Datum → Option (List Datum)) (d : Datum) : List Datum := decomposed ((t d).getD [d])

theorem decomposed_append (a b : List Datum) : decomposed (a ++ b) = decomposed a ++ decomposed b := by
  simp [decomposed]

theorem expand_append (a b : List Datum) : expand t (a ++ b) = expand t a ++ expand t b := by simp [expand]

theorem nfd_eq (ds : List Datum) : nfd t ds = reorder combining (ds.flatMap (atoms t)) := by
  unfold nfd
  congr 1
  induction ds with
  | nil => rfl
  | cons d ds ih =>
    rw [List.flatMap_cons, ← ih, atoms, ← decomposed_append]
    rfl

theorem decomposed_id {ds : List Datum} (h : ∀ d ∈ ds, isS d = false) : decomposed ds = ds := by
  induction ds with
  | nil => rfl
  | cons d ds ih =>
    have := ih (fun x hx => h x (by simp [hx]))
    simp only [decomposed, List.flatMap_cons, h d (by simp)] at this ⊢
    rw [this]; simp

theorem atoms_atom {d : Datum} (h : Atom t d) : atoms t d = [d] := by
  rw [atoms, h.1]; exact decomposed_id (by simp [h.2])

theorem atoms_are (he : Expanded t) (hj : JamoFree t) (d x : Datum) (hx : x ∈ atoms t d) : Atom t x := by
  rw [atoms] at hx
  have inJamo : ∀ d x, isS d = true → x ∈ (jamo (chr d)).map uniDatum → Atom t x := by
    intro d x hd hx
    obtain ⟨m, hm, rfl⟩ := List.mem_map.1 hx
    have := jamo_range (isS_chr hd) hm
    refine ⟨hj m (by omega) (by omega), ?_⟩
    rw [isS, uni_class (by omega)]
    simp; omega
  cases ht : t d with
  | some v =>
    rw [ht] at hx
    have : decomposed v = v := decomposed_id fun x hx => (he d v ht x hx).2
    simp only [Option.getD_some, this] at hx
    exact he d v ht x hx
  | none =>
    rw [ht] at hx
    simp only [Option.getD_none, decomposed, List.flatMap_cons, List.flatMap_nil, List.append_nil] at hx
    split at hx
    · exact inJamo d x ‹_› hx
    · rename_i hS
      simp at hx; subst hx; exact ⟨ht, by simpa using hS⟩

theorem nfd_atoms (he : Expanded t) (hj : JamoFree t) (ds : List Datum) : ∀ x ∈ nfd t ds, Atom t x := by
  intro x hx
  rw [nfd_eq, reorder_mem] at hx
  obtain ⟨d, _, h⟩ := List.mem_flatMap.1 hx
  exact atoms_are he hj d x h

theorem flatMap_atoms {ds : List Datum} (h : ∀ x ∈ ds, Atom t x) : ds.flatMap (atoms t) = ds := by
  induction ds with
  | nil => rfl
  | cons d ds ih => rw [List.flatMap_cons, atoms_atom (h d (by simp)), ih (fun x hx => h x (by simp [hx]))]; rfl

/-- Form D of data that do not decompose is their canonical ordering. -/
theorem nfd_of_atoms {ds : List Datum} (h : ∀ x ∈ ds, Atom t x) : nfd t ds = reorder combining ds := by
  rw [nfd_eq, flatMap_atoms h]

/-- Form D of form D is form D. -/
theorem nfd_idem (he : Expanded t) (hj : JamoFree t) (ds : List Datum) : nfd t (nfd t ds) = nfd t ds := by
  rw [nfd_of_atoms (nfd_atoms he hj ds), nfd_eq, reorder_idem]

/-! ### Form C -/

/-- Written in the standard way: as few bytes as possible. -/
def Std (d : Datum) : Prop := d = uniDatum (chr d)

/-- Composites decompose into what they are composed of. -/
def Undone (t : Datum → Option (List Datum)) (comb : Datum → Datum → Option Datum) : Prop :=
  ∀ s c x, Std s → Std c → comb s c = some x → Std x ∧ atoms t x = atoms t s ++ atoms t c

theorem nfd_composeFrom (hu : Undone t comb) : ∀ (ds : List Datum) (o : Option (Datum × List Datum)) (A : List Datum),
    (∀ x ∈ ds, Atom t x) → (∀ x ∈ ds, Std x) → (∀ s p, o = some (s, p) → Std s ∧ ∀ b ∈ p, Atom t b ∧ combining b ≠ 0) →
    reorder combining (A ++ (composeFrom comb o ds).flatMap (atoms t)) =
      reorder combining (A ++ (match o with | none => ds | some (s, p) => s :: p ++ ds).flatMap (atoms t)) := by
  intro ds
  induction ds with
  | nil =>
    intro o A _ _ _
    cases o with
    | none => rfl
    | some q => simp [composeFrom]
  | cons c ds ih =>
    intro o A hds hstd ho
    have hstd' : ∀ x ∈ ds, Std x := fun x hx => hstd x (by simp [hx])
    have hsc := hstd c (by simp)
    have hds' : ∀ x ∈ ds, Atom t x := fun x hx => hds x (by simp [hx])
    have none0 : ∀ s p, (none : Option (Datum × List Datum)) = some (s, p) → Std s ∧ ∀ b ∈ p, Atom t b ∧ combining b ≠ 0 := by simp
    have nil0 : ∀ (s : Datum) p, some (c, ([] : List Datum)) = some (s, p) → Std s ∧ ∀ b ∈ p, Atom t b ∧ combining b ≠ 0 := by
      intro s p h; simp at h; rw [← h.1]; exact ⟨hsc, by simp [h.2]⟩
    simp only [composeFrom]
    split
    · rename_i hc
      cases o with
      | none =>
        simp only
        split
        · have := ih (some (c, [])) A hds' hstd' nil0
          simpa using this
        · have := ih none (A ++ atoms t c) hds' hstd' none0
          simpa using this
      | some q =>
        obtain ⟨s, p⟩ := q
        have hp := (ho s p rfl).2
        have hss := (ho s p rfl).1
        simp only
        cases hx : (if unblocked p c then comb s c else none) with
        | some x =>
          simp only
          have hb : unblocked p c ∧ comb s c = some x := by
            split at hx
            · exact ⟨‹_›, hx⟩
            · simp at hx
          have hux := hu s c x hss hsc hb.2
          rw [ih (some (x, p)) A hds' hstd' (fun s' p' e => by simp at e; rw [← e.1, ← e.2]; exact ⟨hux.1, hp⟩)]
          simp only [List.flatMap_append, List.flatMap_cons, hux.2, atoms_atom (hds c (by simp)), flatMap_atoms (fun b hb => (hp b hb).1)]
          by_cases h0 : combining c = 0
          · have : p = [] := by
              cases p with
              | nil => rfl
              | cons b p => have := hb.1 b (by simp); omega
            subst this; simp
          · have := reorder_move combining h0 (ds.flatMap (atoms t)) p (A ++ atoms t s)
              (fun b hbp => ⟨(hp b hbp).2, by have := hb.1 b hbp; omega⟩)
            simpa using this
        | none =>
          simp only
          split
          · have := ih (some (c, [])) (A ++ (s :: p).flatMap (atoms t)) hds' hstd' nil0
            simpa using this
          · rename_i hst
            rw [ih (some (s, p ++ [c])) A hds' hstd' ?_]
            · simp
            · intro s' p' e
              simp at e
              rw [← e.1, ← e.2]
              refine ⟨hss, ?_⟩
              intro b hb
              rcases List.mem_append.1 hb with hb | hb
              · exact hp b hb
              · simp at hb; subst hb
                exact ⟨hds b (by simp), fun h0 => hst ⟨hc, h0⟩⟩
    · cases o with
      | none =>
        have := ih none (A ++ atoms t c) hds' hstd' none0
        simpa using this
      | some q =>
        obtain ⟨s, p⟩ := q
        have := ih none (A ++ (s :: p).flatMap (atoms t) ++ atoms t c) hds' hstd' none0
        simpa using this

/-- Composing does not change form D. -/
theorem nfd_compose (hu : Undone t comb) {ds : List Datum} (h : ∀ x ∈ ds, Atom t x) (hs : ∀ x ∈ ds, Std x) : nfd t (compose comb ds) = nfd t ds := by
  rw [nfd_eq, nfd_eq]
  exact nfd_composeFrom hu ds none [] h hs (by simp)

end Verif.Spec

/-! ### One pass of composition or two -/

namespace Verif.Spec
open Verif.Props

variable {comb : Datum → Datum → Option Datum}

/-- Neither a conjoining jamo nor a syllable. -/
def Free (d : Datum) : Prop := isL d = false ∧ isV d = false ∧ isT d = false ∧ isS d = false

/-- The table has nothing to do with Hangul. -/
def HangulFree (comb : Datum → Datum → Option Datum) : Prop := ∀ s c x, comb s c = some x → Free s ∧ Free c ∧ Free x

/-- A text to compose: characters, no syllables, jamo written in the standard way. -/
def Plain (d : Datum) : Prop := char? d ≠ none ∧ isS d = false ∧ ((isL d || isV d || isT d) = true → d = uniDatum (chr d))

/-- Jamo and syllables are starters. -/
theorem hangul_class {d : Datum} (h : ¬ Free d) : combining d = 0 := by
  unfold combining valueIn
  cases hc : char? d with
  | none => rfl
  | some u =>
    have hu : (0x1100 ≤ u ∧ u ≤ 0x11FF) ∨ (0xAC00 ≤ u ∧ u ≤ 0xD7A3) := by
      unfold Free isL isV isT isS at h
      rw [within_some hc, within_some hc, within_some hc, within_some hc] at h
      simp only [decide_eq_false_iff_not] at h
      omega
    simp only [Option.bind_some]
    have : List.find? (fun r => decide (In u r)) Range.cccTable = none := by
      have hall : Range.cccTable.all (fun r => decide ((r.last < 0x1100 ∨ 0x11FF < r.beg) ∧ (r.last < 0xAC00 ∨ 0xD7A3 < r.beg))) = true := by
        decide +kernel
      rw [List.find?_eq_none]
      intro r hr
      have := of_decide_eq_true (List.all_eq_true.1 hall r hr)
      simp only [decide_eq_true_eq]
      intro k
      have k1 : r.beg ≤ u := k.1
      have k2 : u ≤ r.last := k.2
      omega
    rw [this]; rfl

instance (d : Datum) : Decidable (Free d) := by unfold Free; infer_instance

theorem free_of_class {d : Datum} (h : combining d ≠ 0) : Free d := Decidable.byContradiction fun k => h (hangul_class k)

theorem composed_free : ∀ {p : List Datum} (Y : List Datum), (∀ b ∈ p, isL b = false) → composed (p ++ Y) = p ++ composed Y
  | [], _, _ => rfl
  | b :: p, Y, h => by
    rw [List.cons_append, composed_one (h b (by simp)), composed_free Y (fun x hx => h x (by simp [hx])), List.cons_append]

/-- What stands first. -/
theorem composeFrom_head (hf : HangulFree comb) : ∀ (ds : List Datum) (s : Datum) (p : List Datum),
    ∃ h Y, composeFrom comb (some (s, p)) ds = h :: Y ∧ (h = s ∨ Free h) := by
  intro ds
  induction ds with
  | nil => intro s p; exact ⟨s, p, rfl, .inl rfl⟩
  | cons c ds ih =>
    intro s p
    simp only [composeFrom]
    split
    · cases hx : (if unblocked p c then comb s c else none) with
      | some x =>
        simp only
        have hb : comb s c = some x := by
          split at hx
          · exact hx
          · simp at hx
        obtain ⟨h, Y, e, k⟩ := ih x p
        refine ⟨h, Y, e, .inr ?_⟩
        rcases k with rfl | k
        · exact (hf _ _ _ hb).2.2
        · exact k
      | none =>
        simp only
        split
        · exact ⟨s, _, rfl, .inl rfl⟩
        · exact ih s _
    · exact ⟨s, _, rfl, .inl rfl⟩

theorem composed_L' {l : Datum} {Y : List Datum} (hl : isL l = true) (hY : ∀ h Z, Y = h :: Z → isV h = false) :
    composed (l :: Y) = uniDatum (chr l) :: composed Y := by
  cases Y with
  | nil => simp [composed, hl]
  | cons h Z => exact composed_L (hY h Z rfl) hl Z

theorem composed_LV' {l v : Datum} {Y : List Datum} (hl : isL l = true) (hv : isV v = true) (hY : ∀ h Z, Y = h :: Z → isT h = false) :
    composed (l :: v :: Y) = uniDatum (syllable (chr l) (chr v) 0x11A7) :: composed Y := by
  cases Y with
  | nil => simp [composed, hl, hv]
  | cons h Z => exact composed_LV hl hv (hY h Z rfl) Z

/-- A starter that is not a syllable, written in the standard way. -/
def Lead (d : Datum) : Prop := isS d = false ∧ (isL d = true → d = uniDatum (chr d))

theorem jamo_kinds {d : Datum} :
    (isL d = true → isV d = false ∧ isT d = false ∧ isS d = false) ∧ (isV d = true → isL d = false ∧ isT d = false ∧ isS d = false) ∧
    (isT d = true → isL d = false ∧ isV d = false ∧ isS d = false) := by
  unfold isL isV isT isS within
  cases char? d with
  | none => simp
  | some u => simp only [decide_eq_true_eq, decide_eq_false_iff_not]; omega

theorem emitA {s : Datum} {p Y : List Datum} (hs : Lead s) (hp : ∀ b ∈ p, combining b ≠ 0)
    (hY : p = [] → isL s = true → ∀ h Z, Y = h :: Z → isV h = false) : composed (s :: p ++ Y) = s :: p ++ composed Y := by
  have hpf : ∀ b ∈ p, isL b = false := fun b hb => (free_of_class (hp b hb)).1
  cases hl : isL s with
  | false => rw [List.cons_append, composed_one hl, composed_free Y hpf, List.cons_append]
  | true =>
    rw [List.cons_append, composed_L' hl ?_, composed_free Y hpf, ← hs.2 hl, List.cons_append]
    intro h Z e
    cases p with
    | nil => exact hY rfl hl h Z e
    | cons b p =>
      simp only [List.cons_append, List.cons.injEq] at e
      exact e.1 ▸ (free_of_class (hp b (by simp))).2.1

theorem emitB {l v : Datum} {p Y : List Datum} (hl : isL l = true) (hv : isV v = true) (hp : ∀ b ∈ p, combining b ≠ 0)
    (hY : p = [] → ∀ h Z, Y = h :: Z → isT h = false) :
    composed (l :: v :: p ++ Y) = uniDatum (syllable (chr l) (chr v) 0x11A7) :: p ++ composed Y := by
  have hpf : ∀ b ∈ p, isL b = false := fun b hb => (free_of_class (hp b hb)).1
  rw [List.cons_append, List.cons_append, composed_LV' hl hv ?_, composed_free Y hpf, List.cons_append]
  intro h Z e
  cases p with
  | nil => exact hY rfl h Z e
  | cons b p =>
    simp only [List.cons_append, List.cons.injEq] at e
    exact e.1 ▸ (free_of_class (hp b (by simp))).2.2.1

theorem emitC {l v t : Datum} {p Y : List Datum} (hl : isL l = true) (hv : isV v = true) (ht : isT t = true) (hp : ∀ b ∈ p, combining b ≠ 0) :
    composed (l :: v :: t :: p ++ Y) = uniDatum (syllable (chr l) (chr v) (chr t)) :: p ++ composed Y := by
  have hpf : ∀ b ∈ p, isL b = false := fun b hb => (free_of_class (hp b hb)).1
  rw [List.cons_append, List.cons_append, List.cons_append, composed_LVT hl hv ht, composed_free Y hpf, List.cons_append]

theorem syl_facts {l v t : Nat} (h1 : 0x1100 ≤ l ∧ l ≤ 0x1112) (h2 : 0x1161 ≤ v ∧ v ≤ 0x1175) (h3 : 0x11A7 ≤ t ∧ t ≤ 0x11C2) :
    isS (uniDatum (syllable l v t)) = true ∧ chr (uniDatum (syllable l v t)) = syllable l v t ∧
      ((syllable l v t - 0xAC00) % 28 = t - 0x11A7) := by
  have hs : 0xAC00 ≤ syllable l v t ∧ syllable l v t ≤ 0xD7A3 := by unfold syllable; omega
  refine ⟨by rw [isS, uni_class (by omega)]; simpa using hs, uni_chr (by omega), ?_⟩
  unfold syllable; omega

theorem blocked_cons {p : List Datum} {c : Datum} (hc : combining c = 0) (hp : p ≠ []) : ¬ unblocked p c := by
  cases p with
  | nil => simp at hp
  | cons b p => intro h; have := h b (by simp); omega

theorem composed_two (hf : HangulFree comb) : ∀ ds : List Datum, (∀ d ∈ ds, Plain d) →
    (composed (composeFrom comb none ds) = composeFrom (withHangul comb) none ds) ∧
    (∀ s p, Lead s → (∀ b ∈ p, combining b ≠ 0) →
      composed (composeFrom comb (some (s, p)) ds) = composeFrom (withHangul comb) (some (s, p)) ds) ∧
    (∀ l v p, isL l = true → isV v = true → (∀ b ∈ p, combining b ≠ 0) →
      composed (l :: composeFrom comb (some (v, p)) ds) =
        composeFrom (withHangul comb) (some (uniDatum (syllable (chr l) (chr v) 0x11A7), p)) ds) ∧
    (∀ l v t p, isL l = true → isV v = true → isT t = true → (∀ b ∈ p, combining b ≠ 0) →
      composed (l :: v :: composeFrom comb (some (t, p)) ds) =
        composeFrom (withHangul comb) (some (uniDatum (syllable (chr l) (chr v) (chr t)), p)) ds) := by
  intro ds
  induction ds with
  | nil =>
    intro _
    refine ⟨rfl, ?_, ?_, ?_⟩
    · intro s p hs hp
      have := emitA (Y := []) hs hp (by simp)
      simpa [composeFrom, composed] using this
    · intro l v p hl hv hp
      have := emitB (Y := []) hl hv hp (by simp)
      simpa [composeFrom, composed] using this
    · intro l v t p hl hv ht hp
      have := emitC (Y := []) hl hv ht hp
      simpa [composeFrom, composed] using this
  | cons c ds ih =>
    intro hds
    obtain ⟨i0, ia, ib, ic⟩ := ih (fun x hx => hds x (by simp [hx]))
    have hc := hds c (by simp)
    have hcc : (char? c).isSome = true := by cases h : char? c with
      | none => exact absurd h hc.1
      | some u => rfl
    have lead : Lead c := ⟨hc.2.1, fun h => hc.2.2 (by simp [h])⟩
    have more : ∀ p : List Datum, (∀ b ∈ p, combining b ≠ 0) → ¬ isStarter c → ∀ b ∈ p ++ [c], combining b ≠ 0 := by
      intro p hp hst b hb
      rcases List.mem_append.1 hb with hb | hb
      · exact hp b hb
      · simp at hb; subst hb; exact fun h0 => hst ⟨hcc, h0⟩
    have next := ia c [] lead (by simp)
    have head := composeFrom_head hf ds c []
    have noComb : ∀ {s : Datum}, ¬ Free s → comb s c = none := by
      intro s hs
      cases h : comb s c with
      | none => rfl
      | some x => exact absurd (hf _ _ _ h).1 hs
    refine ⟨?_, ?_, ?_, ?_⟩
    · simp only [composeFrom, hcc, if_true]
      split
      · exact next
      · rename_i hst
        rw [composed_one, i0]
        exact (free_of_class (more [] (by simp) hst c (by simp))).1
    · intro s p hs hp
      simp only [composeFrom, hcc, if_true]
      cases hx : (if unblocked p c then comb s c else none) with
      | some x =>
        have hb : unblocked p c ∧ comb s c = some x := by
          split at hx
          · exact ⟨‹_›, hx⟩
          · simp at hx
        have hfx := (hf _ _ _ hb.2).2.2
        have hh : (if unblocked p c then withHangul comb s c else none) = some x := by
          rw [if_pos hb.1, withHangul, hb.2]
        rw [hh]
        exact ia x p ⟨hfx.2.2.2, by simp [hfx.1]⟩ hp
      | none =>
        have hSs := hs.1
        by_cases hLV : (isL s && isV c) = true ∧ p = []
        · obtain ⟨h1, rfl⟩ := hLV
          have h2 := h1
          rw [Bool.and_eq_true] at h2
          have hst : isStarter c := ⟨hcc, hangul_class (by unfold Free; simp [h2.2])⟩
          have hu : unblocked [] c := by intro b hb; simp at hb
          rw [if_pos hu] at hx
          have hh : (if unblocked [] c then withHangul comb s c else none) = some (uniDatum (syllable (chr s) (chr c) 0x11A7)) := by
            rw [if_pos hu, withHangul, hx]; simp only [hangulPair, h1, if_true]
          rw [hh]
          simp only [if_pos hst]
          exact ib s c [] h2.1 h2.2 (by simp)
        · have hh : (if unblocked p c then withHangul comb s c else none) = none := by
            split
            · rename_i hu
              rw [if_pos hu] at hx
              rw [withHangul, hx]
              simp only [hangulPair, hSs, Bool.false_and, Bool.false_eq_true, if_false]
              rw [if_neg]
              intro h1
              rw [Bool.and_eq_true] at h1
              refine blocked_cons (hangul_class (by unfold Free; simp [h1.2])) ?_ hu
              intro e
              exact hLV ⟨by rw [Bool.and_eq_true]; exact h1, e⟩
            · rfl
          rw [hh]
          simp only []
          split
          · rw [emitA hs hp, next]
            intro e hl h Z e2
            obtain ⟨h', Z', e3, k⟩ := head
            rw [e3] at e2
            simp only [List.cons.injEq] at e2
            obtain ⟨rfl, _⟩ := e2
            rcases k with rfl | k
            · cases hv : isV h' with
              | false => rfl
              | true => exact absurd ⟨by rw [hl, hv]; rfl, e⟩ hLV
            · exact k.2.1
          · rename_i hst
            exact ia s (p ++ [c]) hs (more p hp hst)
    · intro l v p hl hv hp
      have hvf : ¬ Free v := by unfold Free; simp [hv]
      have h1 := isL_chr hl
      have h2 := isV_chr hv
      obtain ⟨f1, f2, f3⟩ := syl_facts h1 h2 (t := 0x11A7) (by omega)
      have fS : ¬ Free (uniDatum (syllable (chr l) (chr v) 0x11A7)) := by unfold Free; simp [f1]
      have fL : isL (uniDatum (syllable (chr l) (chr v) 0x11A7)) = false := by
        cases h : isL (uniDatum (syllable (chr l) (chr v) 0x11A7)) with
        | false => rfl
        | true => rw [(jamo_kinds.1 h).2.2] at f1; simp at f1
      simp only [composeFrom, hcc, if_true, noComb hvf, withHangul, noComb fS, ite_self]
      simp only [hangulPair, fL, Bool.false_and, Bool.false_eq_true, if_false, f1, f2, f3, Bool.true_and]
      by_cases hT : isT c = true ∧ p = []
      · obtain ⟨hT, rfl⟩ := hT
        have h3 := isT_chr hT
        have hst : isStarter c := ⟨hcc, hangul_class (by unfold Free; simp [hT])⟩
        have hu : unblocked [] c := by intro b hb; simp at hb
        simp only [if_pos hst, if_pos hu, hT, Nat.sub_self, beq_self_eq_true, Bool.and_self, if_true]
        have e : syllable (chr l) (chr v) 0x11A7 + (chr c - 0x11A7) = syllable (chr l) (chr v) (chr c) := by unfold syllable; omega
        rw [e]
        exact ic l v c [] hl hv hT (by simp)
      · have hh : (if unblocked p c then (if ((0x11A7 - 0x11A7 == 0) && isT c) = true then
            some (uniDatum (syllable (chr l) (chr v) 0x11A7 + (chr c - 0x11A7))) else none) else none) = none := by
          split
          · rename_i hu
            rw [if_neg]
            intro k
            simp only [Nat.sub_self, beq_self_eq_true, Bool.true_and] at k
            refine blocked_cons (hangul_class (by unfold Free; simp [k])) ?_ hu
            exact fun e => hT ⟨k, e⟩
          · rfl
        rw [hh]
        simp only []
        split
        · have := emitB (Y := composeFrom comb (some (c, [])) ds) hl hv hp ?_
          · rw [List.cons_append, List.cons_append] at this
            rw [List.cons_append, this, next]
          · intro e h Z e2
            obtain ⟨h', Z', e3, k⟩ := head
            rw [e3] at e2
            simp only [List.cons.injEq] at e2
            obtain ⟨rfl, _⟩ := e2
            rcases k with rfl | k
            · cases ht : isT h' with
              | false => rfl
              | true => exact absurd ⟨ht, e⟩ hT
            · exact k.2.2.1
        · rename_i hst
          exact ib l v (p ++ [c]) hl hv (more p hp hst)
    · intro l v t p hl hv ht hp
      have htf : ¬ Free t := by unfold Free; simp [ht]
      have h1 := isL_chr hl
      have h2 := isV_chr hv
      have h3 := isT_chr ht
      obtain ⟨f1, f2, f3⟩ := syl_facts h1 h2 (t := chr t) (by omega)
      have fS : ¬ Free (uniDatum (syllable (chr l) (chr v) (chr t))) := by unfold Free; simp [f1]
      have fL : isL (uniDatum (syllable (chr l) (chr v) (chr t))) = false := by
        cases h : isL (uniDatum (syllable (chr l) (chr v) (chr t))) with
        | false => rfl
        | true => rw [(jamo_kinds.1 h).2.2] at f1; simp at f1
      have f4 : (chr t - 0x11A7 == 0) = false := by simp; omega
      simp only [composeFrom, hcc, if_true, noComb htf, withHangul, noComb fS, ite_self]
      simp only [hangulPair, fL, Bool.false_and, Bool.false_eq_true, if_false, f1, f2, f3, f4, Bool.true_and, ite_self]
      split
      · have := emitC (Y := composeFrom comb (some (c, [])) ds) hl hv ht hp
        simp only [List.cons_append] at this ⊢
        rw [this, next]
      · rename_i hst
        exact ic l v t (p ++ [c]) hl hv ht (more p hp hst)

/-! ### The two forms -/

/-- Decompositions are written in the standard way. -/
def StdTable (t : Datum → Option (List Datum)) : Prop := ∀ d v, t d = some v → ∀ x ∈ v, Std x ∧ char? x ≠ none

theorem std_uni {n : Nat} (hn : n < 2 ^ 32) : Std (uniDatum n) := by rw [Std, uni_chr hn]

/-- What is needed of the tables. -/
structure Tables (t : Datum → Option (List Datum)) (comb : Datum → Datum → Option Datum) : Prop where
  expanded : Expanded t
  jamoFree : JamoFree t
  syllables : ∀ n, 0xAC00 ≤ n → n ≤ 0xD7A3 → t (uniDatum n) = none
  std : StdTable t
  hangulFree : HangulFree comb
  undone : ∀ s c x, comb s c = some x → Std x ∧ atoms t x = atoms t s ++ atoms t c

variable {t : Datum → Option (List Datum)}

theorem nfd_std (hs : StdTable t) {ds : List Datum} (h : ∀ d ∈ ds, Std d ∧ char? d ≠ none) : ∀ x ∈ nfd t ds, Std x ∧ char? x ≠ none := by
  intro x hx
  rw [nfd_eq, reorder_mem] at hx
  obtain ⟨d, hd, hx⟩ := List.mem_flatMap.1 hx
  have hexp : ∀ y ∈ (t d).getD [d], Std y ∧ char? y ≠ none := by
    cases ht : t d with
    | none => simpa using h d hd
    | some v => exact hs d v ht
  rw [atoms, decomposed] at hx
  obtain ⟨y, hy, hx⟩ := List.mem_flatMap.1 hx
  split at hx
  · rename_i hS
    obtain ⟨m, hm, rfl⟩ := List.mem_map.1 hx
    have := jamo_range (isS_chr hS) hm
    exact ⟨std_uni (by omega), by rw [char_uni (by omega)]; simp⟩
  · simp at hx; subst hx; exact hexp x hy

theorem hangul_undone (hj : JamoFree t) (hsy : ∀ n, 0xAC00 ≤ n → n ≤ 0xD7A3 → t (uniDatum n) = none) (s c x : Datum) (hs : Std s) (hc : Std c)
    (h : hangulPair s c = some x) : Std x ∧ atoms t x = atoms t s ++ atoms t c := by
  have syl : ∀ n, 0xAC00 ≤ n → n ≤ 0xD7A3 → atoms t (uniDatum n) = (jamo n).map uniDatum := by
    intro n h1 h2
    have hS : isS (uniDatum n) = true := by rw [isS, uni_class (by omega)]; simp; omega
    rw [atoms, hsy n h1 h2]
    simp [decomposed, hS, uni_chr (show n < 2 ^ 32 by omega)]
  have jam : ∀ d, Std d → 0x1100 ≤ chr d → chr d < 0x1200 → atoms t d = [d] := by
    intro d hd h1 h2
    refine atoms_atom ⟨by rw [hd]; exact hj _ h1 h2, ?_⟩
    rw [hd, isS, uni_class (by omega)]
    simp; omega
  unfold hangulPair at h
  split at h
  · rename_i hk
    rw [Bool.and_eq_true] at hk
    have h1 := isL_chr hk.1
    have h2 := isV_chr hk.2
    simp only [Option.some.injEq] at h
    subst h
    have hb : 0xAC00 ≤ syllable (chr s) (chr c) 0x11A7 ∧ syllable (chr s) (chr c) 0x11A7 ≤ 0xD7A3 := by unfold syllable; omega
    refine ⟨std_uni (by omega), ?_⟩
    rw [syl _ hb.1 hb.2, jam s hs (by omega) (by omega), jam c hc (by omega) (by omega)]
    have e1 : 0x1100 + (syllable (chr s) (chr c) 0x11A7 - 0xAC00) / 588 = chr s := by unfold syllable; omega
    have e2 : 0x1161 + (syllable (chr s) (chr c) 0x11A7 - 0xAC00) % 588 / 28 = chr c := by unfold syllable; omega
    have e3 : 0x11A7 + (syllable (chr s) (chr c) 0x11A7 - 0xAC00) % 28 = 0x11A7 := by unfold syllable; omega
    simp only [jamo, e1, e2, e3, if_true, List.map_cons, List.map_nil]
    rw [← hs, ← hc]; rfl
  · split at h
    · rename_i hk
      simp only [Bool.and_eq_true, beq_iff_eq] at hk
      have h1 := isS_chr hk.1.1
      have h2 := isT_chr hk.2
      simp only [Option.some.injEq] at h
      subst h
      have hb : 0xAC00 ≤ chr s + (chr c - 0x11A7) ∧ chr s + (chr c - 0x11A7) ≤ 0xD7A3 := by omega
      refine ⟨std_uni (by omega), ?_⟩
      rw [syl _ hb.1 hb.2, jam c hc (by omega) (by omega)]
      have hss : atoms t s = (jamo (chr s)).map uniDatum := by
        have := syl (chr s) h1.1 h1.2
        rw [← hs] at this; exact this
      rw [hss]
      have e1 : (chr s + (chr c - 0x11A7) - 0xAC00) / 588 = (chr s - 0xAC00) / 588 := by omega
      have e2 : (chr s + (chr c - 0x11A7) - 0xAC00) % 588 / 28 = (chr s - 0xAC00) % 588 / 28 := by omega
      have e3 : 0x11A7 + (chr s + (chr c - 0x11A7) - 0xAC00) % 28 = chr c := by omega
      have e4 : ¬ (chr c = 0x11A7) := by omega
      simp only [jamo, e1, e2, e3, hk.1.2, e4, if_true, if_false, List.map_cons, List.map_nil, List.cons_append, List.nil_append, Nat.add_zero]
      rw [← hc]
    · simp at h

theorem Tables.full (h : Tables t comb) : Undone t (withHangul comb) := by
  intro s c x hs hc hx
  unfold withHangul at hx
  split at hx
  · rename_i y hy
    simp only [Option.some.injEq] at hx
    subst hx
    exact h.undone s c _ hy
  · exact hangul_undone h.jamoFree h.syllables s c x hs hc hx

end Verif.Spec
