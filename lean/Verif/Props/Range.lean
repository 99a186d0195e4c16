import Verif.Model.RangeTables
import Verif.Spec.Range
import Verif.Spec.Unicode
/-
C39: interval-table lookups are exact.
-/
namespace Verif.Props
open Verif.Spec Verif.Range

theorem loop_spec (t : List Row) (h : Ordered t) (u : Nat) (min max : Int) (m0 : Nat) (h0 : 0 ≤ min)
    (h1 : max < t.length) (hlo : ∀ k, (hk : k < t.length) → (k : Int) < min → t[k].last < u)
    (hhi : ∀ k, (hk : k < t.length) → max < (k : Int) → u < t[k].beg) :
    ∃ f, loop t u min max m0 = some f ∧
      ((f.hit = true ∧ ∃ hm : f.mid < t.length, In u t[f.mid]) ∨
       (f.hit = false ∧ (∀ r ∈ t, ¬ In u r) ∧ (f.mid < t.length ∨ f.mid = m0))) := by
  fun_induction loop t u min max m0 with
  | case1 min max m0 hle m hneg => omega
  | case2 min max m0 hle m hneg hnone =>
    rw [List.getElem?_eq_none_iff] at hnone
    omega
  | case3 min max m0 hle m hneg r hr hgt ih =>
    have hm : m.toNat < t.length := by
      omega
    have hr' : t[m.toNat] = r := by rw [List.getElem?_eq_getElem hm] at hr; exact Option.some.inj hr
    have hr1 := congrArg Row.beg hr'
    have hr2 := congrArg Row.last hr'
    obtain ⟨f, hf, hh⟩ := ih (by omega) h1 (by
      intro k hk hkm
      by_cases hkm' : k = m.toNat
      · subst hkm'; omega
      · have hlt : k < m.toNat := by omega
        have := List.pairwise_iff_getElem.1 h.2 k m.toNat hk hm hlt
        have hrr := h.1 t[m.toNat] (List.getElem_mem hm)
        omega) hhi
    refine ⟨f, hf, ?_⟩
    rcases hh with hh | ⟨a, b, c⟩
    · exact Or.inl hh
    · exact Or.inr ⟨a, b, by omega⟩
  | case4 min max m0 hle m hneg r hr hgt hlt ih =>
    have hm : m.toNat < t.length := by
      omega
    have hr' : t[m.toNat] = r := by rw [List.getElem?_eq_getElem hm] at hr; exact Option.some.inj hr
    have hr1 := congrArg Row.beg hr'
    have hr2 := congrArg Row.last hr'
    obtain ⟨f, hf, hh⟩ := ih h0 (by omega) hlo (by
      intro k hk hkm
      by_cases hkm' : k = m.toNat
      · subst hkm'; omega
      · have hlt' : m.toNat < k := by omega
        have := List.pairwise_iff_getElem.1 h.2 m.toNat k hm hk hlt'
        have hrr := h.1 t[m.toNat] (List.getElem_mem hm)
        omega)
    refine ⟨f, hf, ?_⟩
    rcases hh with hh | ⟨a, b, c⟩
    · exact Or.inl hh
    · exact Or.inr ⟨a, b, by omega⟩
  | case5 min max m0 hle m hneg r hr hgt hlt =>
    have hm : m.toNat < t.length := by
      omega
    have hr' : t[m.toNat] = r := by rw [List.getElem?_eq_getElem hm] at hr; exact Option.some.inj hr
    have hr1 := congrArg Row.beg hr'
    have hr2 := congrArg Row.last hr'
    exact ⟨_, rfl, Or.inl ⟨rfl, hm, by subst hr'; unfold In; simp only; omega⟩⟩
  | case6 min max m0 hle =>
    refine ⟨_, rfl, Or.inr ⟨rfl, ?_, Or.inr rfl⟩⟩
    intro r hr hin
    obtain ⟨k, hk, rfl⟩ := List.getElem_of_mem hr
    by_cases hkm : (k : Int) < min
    · have := hlo k hk hkm; unfold In at hin; omega
    · have := hhi k hk (by omega); unfold In at hin; omega

/-- Two rows of an ordered table that contain the same number are the same row. -/
theorem in_unique {t : List Row} (h : Ordered t) {a b : Row} (ha : a ∈ t) (hb : b ∈ t) {u : Nat} (h1 : In u a)
    (h2 : In u b) : a = b := by
  obtain ⟨i, hi, rfl⟩ := List.getElem_of_mem ha
  obtain ⟨j, hj, rfl⟩ := List.getElem_of_mem hb
  unfold In at h1 h2
  rcases Nat.lt_trichotomy i j with hij | hij | hij
  · have := List.pairwise_iff_getElem.1 h.2 i j hi hj hij; omega
  · subst hij; rfl
  · have := List.pairwise_iff_getElem.1 h.2 j i hj hi hij; omega

/-- The search never reads outside the table and finds exactly the row that contains the number. -/
theorem find_spec {t : List Row} (h : Ordered t) (hne : t ≠ []) (u : Nat) :
    ∃ o, find t u = some o ∧ ∀ r, o = some r ↔ r ∈ t ∧ In u r := by
  have hl : 0 < t.length := List.length_pos_iff.2 hne
  have e0 : t[0]? = some t[0] := List.getElem?_eq_getElem hl
  have e1 : t[t.length - 1]? = some t[t.length - 1] := List.getElem?_eq_getElem (by omega)
  unfold find search
  rw [e0, e1]
  simp only
  split
  · rename_i hout
    refine ⟨none, rfl, fun r => ⟨by simp, fun ⟨hr, hin⟩ => ?_⟩⟩
    exfalso
    obtain ⟨k, hk, rfl⟩ := List.getElem_of_mem hr
    unfold In at hin
    rcases hout with hout | hout
    · rcases Nat.eq_zero_or_pos k with rfl | hk0
      · omega
      · have := List.pairwise_iff_getElem.1 h.2 0 k hl hk hk0
        have := h.1 t[0] (List.getElem_mem hl); omega
    · by_cases hkl : k = t.length - 1
      · subst hkl; omega
      · have := List.pairwise_iff_getElem.1 h.2 k (t.length - 1) hk (by omega) (by omega)
        have := h.1 t[t.length - 1] (List.getElem_mem (by omega)); omega
  · obtain ⟨f, hf, hh⟩ := loop_spec t h u 0 (t.length - 1) 0 (by omega) (by omega) (by omega) (by omega)
    rw [hf]
    rcases hh with ⟨hh, hm, hin⟩ | ⟨hh, hno, _⟩
    · obtain ⟨hit, mid⟩ := f
      simp only at hh hm hin
      subst hh
      refine ⟨some t[mid], by simp [hm], fun r => ?_⟩
      constructor
      · rintro ⟨⟩; exact ⟨List.getElem_mem hm, hin⟩
      · rintro ⟨hr, hin'⟩; rw [in_unique h (List.getElem_mem hm) hr hin hin']
    · obtain ⟨hit, mid⟩ := f
      simp only at hh
      subst hh
      exact ⟨none, by simp, fun r => ⟨by simp, fun ⟨hr, hin⟩ => absurd hin (hno r hr)⟩⟩

/-- `beBytes` is read back by the accumulation loop. -/
theorem ucs_append (bs : List Nat) (b : Nat) : ucs (bs ++ [b]) = (ucs bs <<< 8) % 2 ^ 32 ||| b := by
  simp [ucs, List.foldl_append]

theorem ucs_beBytes (n : Nat) (hn : n < 2 ^ 32) : ucs (beBytes n) = n := by
  induction n using Nat.strongRecOn with
  | ind n ih =>
    rw [beBytes]
    split
    · simp [ucs]
    · rw [ucs_append, ih (n / 256) (by omega) (by omega), Nat.shiftLeft_eq,
        Nat.mod_eq_of_lt (by omega)]
      have := Nat.two_pow_add_eq_or_of_lt (i := 8) (b := n % 256) (by omega) (n / 256)
      rw [Nat.mul_comm, ← this]; omega

/-- Every table shipped with the filters is ordered and non-empty. -/
theorem filters_ordered : ∀ p ∈ filters, Ordered p.2 ∧ p.2 ≠ [] := by
  have h : filters.all (fun p => ordered p.2 && !p.2.isEmpty) = true := by decide +kernel
  intro p hp
  have := List.all_eq_true.1 h p hp
  simp only [Bool.and_eq_true, Bool.not_eq_true', List.isEmpty_eq_false_iff] at this
  exact ⟨ordered_sound _ this.1, this.2⟩

theorem scorers_ordered : ∀ p ∈ scorers, Ordered p.2 ∧ p.2 ≠ [] := by
  have h : scorers.all (fun p => ordered p.2 && !p.2.isEmpty) = true := by decide +kernel
  intro p hp
  have := List.all_eq_true.1 h p hp
  simp only [Bool.and_eq_true, Bool.not_eq_true', List.isEmpty_eq_false_iff] at this
  exact ⟨ordered_sound _ this.1, this.2⟩

theorem width_ordered : Ordered widthTable ∧ widthTable ≠ [] :=
  ⟨ordered_sound _ (by decide +kernel), by decide +kernel⟩
theorem ambiguous_ordered : Ordered ambiguous ∧ ambiguous ≠ [] :=
  ⟨ordered_sound _ (by decide +kernel), by decide +kernel⟩
theorem ccc_ordered : Ordered cccTable ∧ cccTable ≠ [] :=
  ⟨ordered_sound _ (by decide +kernel), by decide +kernel⟩

/-- C39, filters by range: on the datum of any code point (any 32-bit number) every shipped filter answers
whether one of its intervals contains it. -/
theorem C39_filter {name : String} {t : List Row} (ht : (name, t) ∈ filters) (cp : Nat) (hcp : cp < 2 ^ 32) :
    cbfilter t (uniDatum cp) = some (decide (∃ r ∈ t, r.beg ≤ cp ∧ cp ≤ r.last)) := by
  obtain ⟨ho, hne⟩ := filters_ordered _ ht
  obtain ⟨o, h1, h2⟩ := find_spec ho hne cp
  unfold cbfilter uniDatum
  simp only [ne_eq, not_true, if_false]
  rw [ucs_beBytes cp hcp, h1]
  cases o with
  | none =>
    rw [Option.map_some]
    congr 1
    symm
    simp only [Option.isSome_none, decide_eq_false_iff_not]
    rintro ⟨r, hr, hin⟩
    have := (h2 r).2 ⟨hr, hin⟩
    cases this
  | some r =>
    rw [Option.map_some]
    congr 1
    symm
    simp only [Option.isSome_some, decide_eq_true_eq]
    exact ⟨r, (h2 r).1 rfl⟩

/-- C39, filters on data that are not unicode. -/
theorem C39_filter_other {name : String} {t : List Row} (_ : (name, t) ∈ filters) (d : List Nat)
    (hd : d.head? ≠ some 1) : cbfilter t d = some false := by
  cases d with
  | nil => rfl
  | cons h p => simp only [List.head?_cons, ne_eq, Option.some.injEq] at hd; simp [cbfilter, hd]

/-- C39, filters by type. -/
theorem C39_type (ty : Nat) (d : List Nat) : typefilter ty d = true ↔ d.head? = some ty := by
  cases d <;> simp [typefilter]

/-- A value lookup is exact: the value of the interval that contains the number, nothing if there is none. -/
theorem lookup_spec {t : List Row} (ht : Ordered t ∧ t ≠ []) (cp : Nat) (hcp : cp < 2 ^ 32) :
    ∃ o, lookup t (uniDatum cp) = some o ∧
      ∀ v, o = some v ↔ ∃ r ∈ t, (r.beg ≤ cp ∧ cp ≤ r.last) ∧ r.val = v := by
  obtain ⟨o, h1, h2⟩ := find_spec ht.1 ht.2 cp
  unfold lookup uniDatum
  simp only [ne_eq, not_true, if_false]
  rw [ucs_beBytes cp hcp, h1]
  refine ⟨o.map Row.val, rfl, fun v => ?_⟩
  constructor
  · intro h
    cases o with
    | none => cases h
    | some r => exact ⟨r, ((h2 r).1 rfl).1, ((h2 r).1 rfl).2, by simpa using h⟩
  · rintro ⟨r, hr, hin, rfl⟩
    rw [(h2 r).2 ⟨hr, hin⟩]; rfl

/-- C39, display width (WIDTH), on every code point. -/
theorem C39_width (cp : Nat) (hcp : cp < 2 ^ 32) : ∃ o, lookup widthTable (uniDatum cp) = some o ∧
    ∀ v, o = some v ↔ ∃ r ∈ widthTable, (r.beg ≤ cp ∧ cp ≤ r.last) ∧ r.val = v :=
  lookup_spec width_ordered cp hcp

/-- C39, ambiguous width (AMBIGUOUS-PAD, AMBIGUOUS-UNPAD). -/
theorem C39_ambiguous (cp : Nat) (hcp : cp < 2 ^ 32) : ∃ o, lookup ambiguous (uniDatum cp) = some o ∧
    (o.isSome = true ↔ ∃ r ∈ ambiguous, r.beg ≤ cp ∧ cp ≤ r.last) := by
  obtain ⟨o, h1, h2⟩ := lookup_spec ambiguous_ordered cp hcp
  refine ⟨o, h1, ?_⟩
  constructor
  · intro h
    obtain ⟨v, rfl⟩ := Option.isSome_iff_exists.1 h
    obtain ⟨r, hr, hin, _⟩ := (h2 v).1 rfl
    exact ⟨r, hr, hin⟩
  · rintro ⟨r, hr, hin⟩
    rw [(h2 r.val).2 ⟨r, hr, hin, rfl⟩]; rfl

/-- C39, combining classes (_NF-ORDER, _NFC). -/
theorem C39_ccc (cp : Nat) (hcp : cp < 2 ^ 32) : ∃ o, lookup cccTable (uniDatum cp) = some o ∧
    ∀ v, o = some v ↔ ∃ r ∈ cccTable, (r.beg ≤ cp ∧ cp ≤ r.last) ∧ r.val = v :=
  lookup_spec ccc_ordered cp hcp

/-- C39, scorers: the score of the interval that contains the code point, otherwise 0. -/
theorem C39_scorer {name : String} {t : List Row} (ht : (name, t) ∈ scorers) (cp : Nat) (hcp : cp < 2 ^ 32) :
    (∀ r ∈ t, r.beg ≤ cp ∧ cp ≤ r.last → cbscorer t (uniDatum cp) = some r.val) ∧
    ((∀ r ∈ t, ¬ (r.beg ≤ cp ∧ cp ≤ r.last)) → cbscorer t (uniDatum cp) = some 0) := by
  obtain ⟨ho, hne⟩ := scorers_ordered _ ht
  obtain ⟨o, h1, h2⟩ := find_spec ho hne cp
  unfold cbscorer uniDatum
  simp only [ne_eq, not_true, if_false]
  rw [ucs_beBytes cp hcp, h1]
  constructor
  · intro r hr hin
    rw [(h2 r).2 ⟨hr, hin⟩]; rfl
  · intro hno
    cases o with
    | none => rfl
    | some r => exact absurd ((h2 r).1 rfl).2 (hno r ((h2 r).1 rfl).1)

/-- An unordered table would not be searched exactly: order is what the proof needs from the tables. -/
example : cbfilter [⟨5, 6, 1⟩, ⟨1, 2, 1⟩, ⟨8, 9, 1⟩] (uniDatum 2) = some false := by decide +kernel

example : ("CJK", filterCJK) ∈ filters := by decide +kernel
example : cbfilter filterCJK (uniDatum 0x4E2D) = some true ∧ cbfilter filterCJK (uniDatum 0x41) = some false := by
  decide +kernel
example : lookup widthTable (uniDatum 0x4E2D) = some (some 2) ∧ lookup widthTable (uniDatum 0x41) = some (some 1) ∧
    lookup widthTable (uniDatum 0xA1) = some (some (-1)) ∧ lookup widthTable (uniDatum 7) = some none := by
  decide +kernel
example : lookup cccTable (uniDatum 0x301) = some (some 230) := by decide +kernel

end Verif.Props
