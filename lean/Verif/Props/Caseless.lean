import Verif.Props.Stage
/-
C80: NFKD-CASEFOLD, the form of a text for caseless comparison.
-/
namespace Verif.Props
open Verif.Spec
open Verif.Engine hiding Datum step

/-- A check that looks characters up in `f`, whose rules are to be cut into ascending pieces at `cs`, with a search tree. -/
def withCuts (f : Pages) (cs : List Nat) (chk : (Nat → List Nat) → Bool) : Bool :=
  (cutUp cs f.rules).all ascending && match joinUps 14 (tips (mergeAll (cutUp cs f.rules))) with
    | [(t, m)] => chk fun n => bif Nat.ble n m then t.get n else [n]
    | _ => false

theorem withCuts_iff {f : Pages} {cs : List Nat} {chk : (Nat → List Nat) → Bool} (h : withCuts f cs chk = true) :
    chk (fun n => (f.find n).getD [n]) = true := by
  unfold withCuts at h
  rw [Bool.and_eq_true] at h
  obtain ⟨hf, h⟩ := h
  obtain ⟨f1, f2⟩ := mergeAll_facts cs f.rules hf
  split at h
  · rename_i t m ht
    have hget : (fun n => bif Nat.ble n m then t.get n else [n]) = fun n => (f.find n).getD [n] := by
      funext n
      have h1 := tips_get f2 n
      have h2 := joinUps_get 14 h1.2 n
      rw [ht] at h2
      have h3 : forestGet [(t, m)] n = (f.find n).getD [n] := by
        rw [h2, h1.1]
        change (search (mergeAll (cutUp cs f.rules)) n).getD [n] = _
        rw [f1]
        rfl
      rw [← h3]
      simp only [forestGet]
      by_cases k : n ≤ m
      · rw [if_pos k, Nat.ble_eq_true_of_le k]; rfl
      · rw [if_neg k]
        cases hb : Nat.ble n m with
        | false => rfl
        | true => exact absurd (Nat.le_of_ble_eq_true hb) k
    rw [← hget]
    exact h
  · simp at h

/-- What becomes of a character is left alone by `g`. -/
def settledFold (g h : Nat → List Nat) (c : Nat) : Bool := ((((g c).flatMap h).flatMap g).flatMap h).all fun m => sameList (g m) [m]

/-- `a` and `b` differ only in starters which `g` makes equal. -/
def alikeB (g : Nat → List Nat) : List Nat → List Nat → Bool
  | [], [] => true
  | x :: a, y :: b => (Nat.beq x y || (Inter.ccc (uniDatum x) == 0 && Inter.ccc (uniDatum y) == 0 && sameList (g x) (g y))) && alikeB g a b
  | _, _ => false

theorem fold_checks : (withCuts MapTable.casefold MapTable.casefoldCuts fun g => withTree Nfkd.pages fun h =>
    (MapTable.casefold.rules.all fun r => settledFold g h r.1 && noSyllable r.1 && noJamo r.1 && r.2.all noSyllable) &&
    (Nfkd.pages.rules.all fun r => settledFold g h r.1)) = true := by decide +kernel

theorem lower_checks : (withCuts MapTable.casefold MapTable.casefoldCuts fun g => withTree Nfd.pages fun h =>
    (MapTable.lower.rules.all fun r => Nat.beq r.1 0x130 || (alikeB g (r.2.flatMap h) (h r.1) && noSyllable r.1 && r.2.all noSyllable)) &&
    decomposes Nfd.pages h) = true := by decide +kernel

/-! ### What the checks say -/

/-- The rule of a character, or the character itself. -/
abbrev Pages.to (f : Pages) (n : Nat) : List Nat := (f.find n).getD [n]

/-- The decomposition of a character. -/
def decompOf (t : Pages) (n : Nat) : List Nat := if 0xAC00 ≤ n ∧ n ≤ 0xD7A3 then jamo n else Pages.to t n

theorem fold_rules : (∀ r ∈ MapTable.casefold.rules, settledFold (Pages.to MapTable.casefold) (Pages.to Nfkd.pages) r.1 = true ∧
      (r.1 < 0xAC00 ∨ 0xD7A3 < r.1) ∧ (r.1 < 0x1100 ∨ 0x1200 ≤ r.1) ∧ ∀ m ∈ r.2, m < 0xAC00 ∨ 0xD7A3 < m) ∧
    ∀ r ∈ Nfkd.pages.rules, settledFold (Pages.to MapTable.casefold) (Pages.to Nfkd.pages) r.1 = true := by
  have h := withTree_iff (withCuts_iff fold_checks)
  rw [Bool.and_eq_true] at h
  refine ⟨?_, fun r hr => List.all_eq_true.1 h.2 r hr⟩
  intro r hr
  have := List.all_eq_true.1 h.1 r hr
  simp only [Bool.and_eq_true, List.all_eq_true] at this
  exact ⟨this.1.1.1, noSyllable_iff this.1.1.2, noJamo_iff this.1.2, fun m hm => noSyllable_iff (this.2 m hm)⟩

theorem casefold_fine : MapTable.casefold.fine = true := (mapTables_fine (by simp [mapTables])).1
theorem lower_fine : MapTable.lower.fine = true := (mapTables_fine (by simp [mapTables])).1

theorem nfd_decomposes : Decomposes Nfd.pages := by
  have h := withTree_iff (withCuts_iff lower_checks)
  rw [Bool.and_eq_true] at h
  exact decomposes_iff nfd_fine h.2

theorem atoms_decompOf {t : Pages} (h : Decomposes t) {n : Nat} (hn : n < 2 ^ 32) :
    atoms (tableOf t.data) (uniDatum n) = (decompOf t n).map uniDatum := by
  by_cases hs : 0xAC00 ≤ n ∧ n ≤ 0xD7A3
  · rw [decompOf, if_pos hs, atoms, (decomposes_tables h).syllables n hs.1 hs.2]
    have : isS (uniDatum n) = true := by rw [isS, uni_class hn]; simp; omega
    simp [decomposed, this, uni_chr hn]
  · rw [decompOf, if_neg hs, atoms_data h hn (by omega)]

theorem mem_formD {t : Pages} (h : Decomposes t) {cps : List Nat} (hc : ∀ cp ∈ cps, Scalar cp) {m : Nat} (hm : m ∈ formD t cps) :
    ∃ c ∈ cps, m ∈ decompOf t c := by
  obtain ⟨d, hd, rfl⟩ := List.mem_map.1 hm
  rw [nfd_eq, reorder_mem] at hd
  obtain ⟨e, he, hd⟩ := List.mem_flatMap.1 hd
  obtain ⟨c, hcc, rfl⟩ := List.mem_map.1 he
  refine ⟨c, hcc, ?_⟩
  rw [atoms_decompOf h (scalar_small (hc c hcc))] at hd
  obtain ⟨m, hm', rfl⟩ := List.mem_map.1 hd
  have : Scalar (chr (uniDatum m)) := (form_data h.fine hc).1 _ hm
  by_cases hml : m < 2 ^ 32
  · rw [uni_chr hml]; exact hm'
  · exfalso
    apply hml
    unfold decompOf at hm'
    split at hm'
    · rename_i hs
      have := jamo_range hs hm'; omega
    · unfold Pages.to at hm'
      cases hf : t.find c with
      | none => rw [hf] at hm'; simp at hm'; subst hm'; exact scalar_small (hc _ hcc)
      | some v => rw [hf] at hm'; exact scalar_small ((fine_rule h.fine (Pages.find_mem hf)).2.1 m hm')

/-- The form of a text for comparison without regard to case, compatibility differences and the spelling of accents (Unicode D146):
NFKD-CASEFOLD, /repo/modules/inter/alias. -/
def caseless (cps : List Nat) : List Nat := textNFKD (MapTable.casefold.apply (textNFKD (MapTable.casefold.apply (textNFD cps))))

theorem fold_jamo {n : Nat} (h : 0x1100 ≤ n ∧ n < 0x1200) : MapTable.casefold.find n = none ∧ Nfkd.pages.find n = none := by
  constructor
  · cases hf : MapTable.casefold.find n with
    | none => rfl
    | some v => have := (fold_rules.1 _ (Pages.find_mem hf)).2.2.1; simp only at this; omega
  · cases hf : Nfkd.pages.find n with
    | none => rfl
    | some v => have := (nfkd_decomposes.keys _ (Pages.find_mem hf)).2; simp only at this; omega

theorem fold_syllable {n : Nat} (h : 0xAC00 ≤ n ∧ n ≤ 0xD7A3) : MapTable.casefold.find n = none := by
  cases hf : MapTable.casefold.find n with
  | none => rfl
  | some v => have := (fold_rules.1 _ (Pages.find_mem hf)).2.1; simp only at this; omega

/-- Case folding and decomposing twice leaves only characters that case folding does not change. -/
theorem fold_settled {c c2 c3 c4 c5 : Nat} (h2 : c2 ∈ Pages.to MapTable.casefold c) (h3 : c3 ∈ decompOf Nfkd.pages c2)
    (h4 : c4 ∈ Pages.to MapTable.casefold c3) (h5 : c5 ∈ decompOf Nfkd.pages c4) : Pages.to MapTable.casefold c5 = [c5] := by
  by_cases hs : 0xAC00 ≤ c ∧ c ≤ 0xD7A3
  · have e := fold_syllable hs
    simp only [Pages.to, e, Option.getD_none, List.mem_singleton] at h2
    subst h2
    rw [decompOf, if_pos hs] at h3
    have h3' := jamo_range hs h3
    have e3 := fold_jamo (n := c3) (by omega)
    simp only [Pages.to, e3.1, Option.getD_none, List.mem_singleton] at h4
    subst h4
    rw [decompOf, if_neg (by omega)] at h5
    simp only [Pages.to, e3.2, Option.getD_none, List.mem_singleton] at h5
    subst h5
    simp only [Pages.to, e3.1, Option.getD_none]
  · have n2 : ¬ (0xAC00 ≤ c2 ∧ c2 ≤ 0xD7A3) := by
      simp only [Pages.to] at h2
      cases hf : MapTable.casefold.find c with
      | none => rw [hf] at h2; simp at h2; subst h2; exact hs
      | some v => rw [hf] at h2; have := (fold_rules.1 _ (Pages.find_mem hf)).2.2.2 c2 h2; omega
    have dec : ∀ {x y}, ¬ (0xAC00 ≤ x ∧ x ≤ 0xD7A3) → y ∈ Pages.to Nfkd.pages x → ¬ (0xAC00 ≤ y ∧ y ≤ 0xD7A3) := by
      intro x y hx hy
      simp only [Pages.to] at hy
      cases hf : Nfkd.pages.find x with
      | none => rw [hf] at hy; simp at hy; subst hy; exact hx
      | some v => rw [hf] at hy; have := (nfkd_decomposes.vals _ (Pages.find_mem hf) y hy).1; omega
    rw [decompOf, if_neg n2] at h3
    have n3 := dec n2 h3
    have n4 : ¬ (0xAC00 ≤ c4 ∧ c4 ≤ 0xD7A3) := by
      simp only [Pages.to] at h4
      cases hf : MapTable.casefold.find c3 with
      | none => rw [hf] at h4; simp at h4; subst h4; exact n3
      | some v => rw [hf] at h4; have := (fold_rules.1 _ (Pages.find_mem hf)).2.2.2 c4 h4; omega
    rw [decompOf, if_neg n4] at h5
    have use : settledFold (Pages.to MapTable.casefold) (Pages.to Nfkd.pages) c = true → Pages.to MapTable.casefold c5 = [c5] := by
      intro hset
      exact sameList_eq (List.all_eq_true.1 hset c5 (List.mem_flatMap.2 ⟨c4, List.mem_flatMap.2 ⟨c3, List.mem_flatMap.2 ⟨c2, h2, h3⟩, h4⟩, h5⟩))
    cases hf : MapTable.casefold.find c with
    | some v => exact use (fold_rules.1 _ (Pages.find_mem hf)).1
    | none =>
      cases hk : Nfkd.pages.find c with
      | some v => exact use (fold_rules.2 _ (Pages.find_mem hk))
      | none =>
        simp only [Pages.to, hf, Option.getD_none, List.mem_singleton] at h2
        subst h2
        simp only [Pages.to, hk, Option.getD_none, List.mem_singleton] at h3
        subst h3
        simp only [Pages.to, hf, Option.getD_none, List.mem_singleton] at h4
        subst h4
        simp only [Pages.to, hk, Option.getD_none, List.mem_singleton] at h5
        subst h5
        simp only [Pages.to, hf, Option.getD_none]

theorem caseless_scalar {cps : List Nat} (h : ∀ cp ∈ cps, Scalar cp) : ∀ cp ∈ caseless cps, Scalar cp :=
  (forms_scalar (apply_scalar casefold_fine (forms_scalar (apply_scalar casefold_fine (forms_scalar h).1)).2.2.1)).2.2.1

/-- C80.  In the caseless form nothing is left to fold or to decompose. -/
theorem C80_settled {cps : List Nat} (h : ∀ cp ∈ cps, Scalar cp) :
    MapTable.casefold.apply (caseless cps) = caseless cps ∧ textNFKD (caseless cps) = caseless cps ∧ textNFD (caseless cps) = caseless cps := by
  have s1 := (forms_scalar h).1
  have s2 := apply_scalar casefold_fine s1
  have s3 := (forms_scalar s2).2.2.1
  have s4 := apply_scalar casefold_fine s3
  refine ⟨?_, (C79_forms s4).2.2.1.2.2.1, (C79_forms s4).1.2.2.1⟩
  have key : ∀ m ∈ caseless cps, Pages.to MapTable.casefold m = [m] := by
    intro m hm
    obtain ⟨c4, h4, h5⟩ := mem_formD nfkd_decomposes s4 hm
    obtain ⟨c3, h3, h4⟩ := List.mem_flatMap.1 h4
    obtain ⟨c2, h2, h3⟩ := mem_formD nfkd_decomposes s2 h3
    obtain ⟨c1, _, h2⟩ := List.mem_flatMap.1 h2
    exact fold_settled h2 h3 h4 h5
  unfold Pages.apply
  generalize caseless cps = l at key
  induction l with
  | nil => rfl
  | cons m l ih =>
    rw [List.flatMap_cons, ih fun m hm => key m (by simp [hm])]
    have := key m (by simp)
    unfold Pages.to at this
    rw [this]; rfl

/-- C80.  The caseless form of the caseless form is the caseless form. -/
theorem C80_idempotent {cps : List Nat} (h : ∀ cp ∈ cps, Scalar cp) : caseless (caseless cps) = caseless cps := by
  obtain ⟨a, b, c⟩ := C80_settled h
  have e : caseless (caseless cps) = textNFKD (MapTable.casefold.apply (textNFKD (MapTable.casefold.apply (textNFD (caseless cps))))) := rfl
  rw [e, c, a, b, a, b]

/-- C80.  Texts that differ in the spelling of accents only have the same caseless form. -/
theorem C80_canonical {cps cps' : List Nat} (h : textNFD cps = textNFD cps') : caseless cps = caseless cps' := by
  unfold caseless; rw [h]

/-- C80.  In particular a text and its forms C and D. -/
theorem C80_forms {cps : List Nat} (h : ∀ cp ∈ cps, Scalar cp) : caseless (textNFD cps) = caseless cps ∧ caseless (textNFC cps) = caseless cps :=
  ⟨C80_canonical (C79_forms h).1.1, C80_canonical (C79_forms h).1.2.1⟩

/-! ### Lower case -/

/-- Data that differ only in starters which case folding makes equal. -/
inductive Alike : List Datum → List Datum → Prop
  | nil : Alike [] []
  | same (d : Datum) {a b : List Datum} : Alike a b → Alike (d :: a) (d :: b)
  | starters {m n : Nat} {a b : List Datum} : m < 2 ^ 32 → n < 2 ^ 32 → combining (uniDatum m) = 0 → combining (uniDatum n) = 0 →
      Pages.to MapTable.casefold m = Pages.to MapTable.casefold n → Alike a b → Alike (uniDatum m :: a) (uniDatum n :: b)

theorem Alike.refl : ∀ a : List Datum, Alike a a
  | [] => .nil
  | d :: a => .same d (Alike.refl a)

theorem Alike.append {a b c d : List Datum} (h : Alike a b) (h' : Alike c d) : Alike (a ++ c) (b ++ d) := by
  induction h with
  | nil => exact h'
  | same d _ ih => exact .same d ih
  | starters h1 h2 h3 h4 h5 _ ih => exact .starters h1 h2 h3 h4 h5 ih

theorem Alike.reorder {a b : List Datum} (h : Alike a b) : Alike (reorder combining a) (reorder combining b) := by
  have key : ∀ {a b : List Datum}, Alike a b → ∀ r, Alike (reorderFrom combining r a) (reorderFrom combining r b) := by
    intro a b h
    induction h with
    | nil => intro r; exact .refl _
    | same d _ ih =>
      intro r
      rw [reorderFrom, reorderFrom]
      split
      · exact (Alike.refl _).append (.same d (ih []))
      · exact ih _
    | starters h1 h2 h3 h4 h5 _ ih =>
      intro r
      rw [reorderFrom, reorderFrom, if_pos h3, if_pos h4]
      exact (Alike.refl _).append (.starters h1 h2 h3 h4 h5 (ih []))
  exact key h []

theorem Alike.fold {a b : List Datum} (h : Alike a b) : MapTable.casefold.apply (a.map chr) = MapTable.casefold.apply (b.map chr) := by
  induction h with
  | nil => rfl
  | same d _ ih => simp only [Pages.apply, List.map_cons, List.flatMap_cons] at ih ⊢; rw [ih]
  | starters h1 h2 _ _ h5 _ ih =>
    simp only [Pages.apply, List.map_cons, List.flatMap_cons] at ih ⊢
    rw [ih, uni_chr h1, uni_chr h2]
    unfold Pages.to at h5
    rw [h5]

theorem alikeB_iff : ∀ {a b : List Nat}, (∀ n ∈ a ++ b, n < 2 ^ 32) → alikeB (Pages.to MapTable.casefold) a b = true → Alike (a.map uniDatum) (b.map uniDatum)
  | [], [], _, _ => .nil
  | [], _ :: _, _, h => by simp [alikeB] at h
  | _ :: _, [], _, h => by simp [alikeB] at h
  | x :: a, y :: b, hs, h => by
    simp only [alikeB, Bool.and_eq_true, Bool.or_eq_true, beq_iff_eq] at h
    have ih := alikeB_iff (a := a) (b := b) (fun n hn => hs n (by simp at hn ⊢; rcases hn with hn | hn <;> simp [hn])) h.2
    rcases h.1 with e | ⟨⟨e1, e2⟩, e3⟩
    · have := Nat.eq_of_beq_eq_true e
      subst this
      exact .same _ ih
    · have h3 := ccc_eq (uniDatum_bytes x)
      have h4 := ccc_eq (uniDatum_bytes y)
      exact .starters (hs x (by simp)) (hs y (by simp)) (by omega) (by omega) (sameList_eq e3) ih

theorem lower_alike {n : Nat} (hn : Scalar n) (h : n ≠ 0x130) :
    Alike (((Pages.to MapTable.lower n).map uniDatum).flatMap (atoms nfdTable)) (atoms nfdTable (uniDatum n)) := by
  cases hf : MapTable.lower.find n with
  | none =>
    simp only [Pages.to, hf, Option.getD_none, List.map_cons, List.map_nil, List.flatMap_cons, List.flatMap_nil, List.append_nil]
    exact .refl _
  | some v =>
    have hm := Pages.find_mem hf
    have hr := fine_rule lower_fine hm
    have hall := withTree_iff (withCuts_iff lower_checks)
    rw [Bool.and_eq_true] at hall
    have := List.all_eq_true.1 hall.1 _ hm
    simp only [Bool.or_eq_true, Bool.and_eq_true, List.all_eq_true] at this
    rcases this with e | ⟨⟨e1, e2⟩, e3⟩
    · exact absurd (Nat.eq_of_beq_eq_true e) h
    · have d1 : ∀ m, m < 2 ^ 32 → noSyllable m = true → atoms nfdTable (uniDatum m) = (Pages.to Nfd.pages m).map uniDatum := by
        intro m hm hs
        exact atoms_data nfd_decomposes hm (noSyllable_iff hs)
      have small : ∀ m, Scalar m → ∀ x ∈ Pages.to Nfd.pages m, x < 2 ^ 32 := by
        intro m hm x hx
        simp only [Pages.to] at hx
        cases hg : Pages.find Nfd.pages m with
        | none => rw [hg] at hx; simp at hx; subst hx; exact scalar_small hm
        | some w => rw [hg] at hx; exact scalar_small ((fine_rule nfd_fine (Pages.find_mem hg)).2.1 x hx)
      have d2 : ((Pages.to MapTable.lower n).map uniDatum).flatMap (atoms nfdTable) = (v.flatMap (Pages.to Nfd.pages)).map uniDatum := by
        simp only [Pages.to, hf, Option.getD_some]
        have key : ∀ l : List Nat, (∀ m ∈ l, Scalar m ∧ noSyllable m = true) →
            (l.map uniDatum).flatMap (atoms nfdTable) = (l.flatMap (Pages.to Nfd.pages)).map uniDatum := by
          intro l
          induction l with
          | nil => intro _; rfl
          | cons m l ih =>
            intro hl
            rw [List.map_cons, List.flatMap_cons, List.flatMap_cons, List.map_append, ih fun m hm => hl m (by simp [hm]),
              d1 m (scalar_small (hl m (by simp)).1) (hl m (by simp)).2]
        exact key v fun m hm => ⟨hr.2.1 m hm, e3 m hm⟩
      rw [d2, d1 n (scalar_small hn) e2]
      refine alikeB_iff ?_ e1
      intro x hx
      rcases List.mem_append.1 hx with hx | hx
      · obtain ⟨m, hm, hx⟩ := List.mem_flatMap.1 hx
        exact small m (hr.2.1 m hm) x hx
      · exact small n hn x hx

/-- C80.  A text and its lower case have the same caseless form, if the text is without U+0130 (see C73). -/
theorem C80_lower_partial {cps : List Nat} (h : ∀ cp ∈ cps, Scalar cp) (hx : 0x130 ∉ cps) : caseless (MapTable.lower.apply cps) = caseless cps := by
  have key : MapTable.casefold.apply (textNFD (MapTable.lower.apply cps)) = MapTable.casefold.apply (textNFD cps) := by
    refine Alike.fold ?_
    change Alike (nfd nfdTable _) (nfd nfdTable _)
    rw [nfd_eq, nfd_eq]
    refine Alike.reorder ?_
    induction cps with
    | nil => exact .nil
    | cons n cps ih =>
      have e : MapTable.lower.apply (n :: cps) = Pages.to MapTable.lower n ++ MapTable.lower.apply cps := rfl
      rw [e]
      simp only [textData, List.map_append, List.flatMap_append, List.map_cons, List.flatMap_cons]
      exact (lower_alike (h n (by simp)) (by intro e; apply hx; simp [e])).append
        (ih (fun c hc => h c (by simp [hc])) (by intro hc; apply hx; simp [hc]))
  unfold caseless
  rw [key]

/-- C80.  Of U+0130 this is false: LOWER gives `i`, case folding `i` and a dot above. -/
theorem C80_lower_violated : caseless (MapTable.lower.apply [0x130]) = [0x69] ∧ caseless [0x130] = [0x69, 0x307] := by decide +kernel

/-- C80.  A text and its upper case may have different caseless forms: U+0345 is a mark, its upper case is not, so a mark after it stays there. -/
theorem C80_upper_violated : caseless (MapTable.upper.apply [0x3B1, 0x345, 0x301]) ≠ caseless [0x3B1, 0x345, 0x301] := by decide +kernel

/-! ### The conversion -/

variable {π : Type} {st : Nat → Static π} {ip : Nat → Nat → π → π} {ins : Ins π}

/-- C80.  NFKD-CASEFOLD = `NFD:CASEFOLD:NFKD:CASEFOLD:NFKD`, eleven phases from phase `k` on. -/
theorem C80_convert {k : Nat} (h1 : DPhases st ip ins k Nfd.pages) (h2 : Maps (st (k + 3)) MapTable.casefold)
    (h3 : DPhases st ip ins (k + 4) Nfkd.pages) (h4 : Maps (st (k + 7)) MapTable.casefold) (h5 : DPhases st ip ins (k + 8) Nfkd.pages) :
    Stage st ip ins k 11 caseless :=
  C79_compose (n := 8) (C79_compose (n := 7) (C79_compose (n := 4) (C79_compose (n := 3) (C79_nfd h1) (C79_map h2)) (C79_nfkd h3)) (C79_map h4)) (C79_nfkd h5)

/-- The conversion `UTF-8:NFKD-CASEFOLD:UTF-16LE`. -/
def utf8Caseless (k : Nat) : Static TextPriv :=
  match k with
  | 1 => readUtf8
  | 2 => compiledPhase Nfd.pages
  | 3 | 7 | 11 => onePhase .inter (Inter.plain (Lens.unit _) Inter.hangulDecompose)
  | 4 | 8 | 12 => onePhase .inter (Inter.flushing lensQueue Inter.order)
  | 5 | 9 => compiledPhase MapTable.casefold
  | 6 | 10 => compiledPhase Nfkd.pages
  | _ => write16

theorem nfkd_small : Nfkd.pages.small = true := by decide +kernel

theorem utf8Caseless_stage : Stage utf8Caseless (fun _ _ x => x) { ph := fun _ => { priv := fun _ => {} }, phasen := 13 } 2 11 caseless := by
  have hm := C72_compiled (s := compiledPhase MapTable.casefold) (mapTables_fine (t := MapTable.casefold) (by simp [mapTables])).1
    (mapTables_fine (t := MapTable.casefold) (by simp [mapTables])).2 rfl rfl rfl
  have hk := C72_compiled (s := compiledPhase Nfkd.pages) nfkd_fine nfkd_small rfl rfl rfl
  refine C80_convert ⟨C72_compiled nfd_fine nfd_small rfl rfl rfl, ⟨Lens.unit _, only_one _ _⟩, ⟨lensQueue, only_one _ _, fun _ => rfl, rfl⟩, by decide, by decide⟩
    hm ⟨hk, ⟨Lens.unit _, only_one _ _⟩, ⟨lensQueue, only_one _ _, fun _ => rfl, rfl⟩, by decide, by decide⟩
    hm ⟨hk, ⟨Lens.unit _, only_one _ _⟩, ⟨lensQueue, only_one _ _, fun _ => rfl, rfl⟩, by decide, by decide⟩

-- `Å` written as U+212B (angstrom sign) and the ligature ﬁ: `a`, ring above, `fi`.
example : ∃ ds ins', Session utf8Caseless (Ins.init utf8Caseless (fun _ _ x => x) { ph := fun _ => { priv := fun _ => {} }, phasen := 13 })
      ([⟨some [0xE2, 0x84], false, .file⟩] ++ [⟨some [0xAB, 0xEF, 0xAC, 0x81], true, .file⟩]) ds ins' ∧
    (ds.map (fun d => d.bytes)).flatten ++ ins'.pending.flatten = [0x61, 0, 0x0A, 3, 0x66, 0, 0x69, 0] ∧ ins'.ierr = 0 ∧ ins'.oerr = 0 := by
  have hc : ∀ cp ∈ [0x212B, 0xFB01], Scalar cp := by intro cp h; simp at h; rcases h with rfl | rfl <;> simp [Scalar, Surrogate]
  have e : caseless [0x212B, 0xFB01] = [0x61, 0x30A, 0x66, 0x69] := by decide +kernel
  obtain ⟨ds, ins', k1, k2, k3, k4⟩ := C79_convert (st := utf8Caseless) (ip := fun _ _ x => x) (ins := { ph := fun _ => { priv := fun _ => {} }, phasen := 13 })
    (b := .utf16 true) (cps := [0x212B, 0xFB01]) rfl
    (source_readsAs (a := .utf8) (readUtf8_source _ rfl) hc) hc utf8Caseless_stage (.utf16 true ⟨rfl, rfl, rfl⟩)
    [⟨some [0xE2, 0x84], false, .file⟩] ⟨some [0xAB, 0xEF, 0xAC, 0x81], true, .file⟩ (by simp) rfl (by simp) (by decide)
  rw [e] at k2 k4
  exact ⟨ds, ins', k1, k2, k3, k4⟩

end Verif.Props
