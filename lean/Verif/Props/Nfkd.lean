import Verif.Props.Normalize
import Verif.Proofs.MapTable
import Verif.Model.NfkdTable
/-
C78: the compatibility forms NFKD and NFKC, and how the four normalisation forms fit together.
-/
namespace Verif.Props
open Verif.Spec
open Verif.Engine hiding Datum step
open Verif.Inter (plain flushing order hangulCompose hangulDecompose Hangul)

/-! ### Looking things up in a large table -/

/-- A check that looks characters up in `f`, with a search tree. -/
def withTree (f : Pages) (chk : (Nat → List Nat) → Bool) : Bool :=
  ascending f.rules && match joinUps 14 (tips f.rules) with
    | [(t, m)] => chk fun n => bif Nat.ble n m then t.get n else [n]
    | _ => false

theorem withTree_iff {f : Pages} {chk : (Nat → List Nat) → Bool} (h : withTree f chk = true) : chk (fun n => (f.find n).getD [n]) = true := by
  unfold withTree at h
  rw [Bool.and_eq_true] at h
  obtain ⟨ha, h⟩ := h
  split at h
  · rename_i t m ht
    have hget : (fun n => bif Nat.ble n m then t.get n else [n]) = fun n => (f.find n).getD [n] := by
      funext n
      have h1 := tips_get (ascending_pairwise ha) n
      have h2 := joinUps_get 14 h1.2 n
      rw [ht] at h2
      have h3 : forestGet [(t, m)] n = (f.find n).getD [n] := by
        rw [h2, h1.1]
        rfl
      rw [← h3]
      simp only [forestGet]
      by_cases k : n ≤ m
      · rw [if_pos k, Nat.ble_eq_true_of_le k]; rfl
      · rw [if_neg k]
        cases hb : Nat.ble n m with
        | false => rfl
        | true => exact absurd (Nat.le_of_ble_eq_true hb) k
    rw [← hget]
    exact h
  · simp at h

def noSyllable (n : Nat) : Bool := Nat.blt n 0xAC00 || Nat.blt 0xD7A3 n
def noJamo (n : Nat) : Bool := Nat.blt n 0x1100 || Nat.ble 0x1200 n

/-- Decompositions are fully expanded and have nothing to do with Hangul; composites decompose into what they are composed of. -/
def decomposes (f : Pages) (g : Nat → List Nat) : Bool :=
  f.rules.all (fun r => noSyllable r.1 && noJamo r.1 && !sameList r.2 [r.1] && r.2.all fun m => noSyllable m && sameList (g m) [m]) &&
  Nfc.rules.all fun r => sameList (g r.2.2.1) (g r.1 ++ g r.2.1)

/-- It goes on where `u` ends: its decompositions are those of `u`, further expanded, and what it does with marks `u` does already. -/
def extends_ (u : Pages) (g : Nat → List Nat) : Bool :=
  u.rules.all (fun r => sameList (r.2.flatMap g) (g r.1) && !sameList (g r.1) [r.1]) &&
  Range.cccTable.all fun r => (List.range' r.beg (r.last + 1 - r.beg)).all fun n => sameList (g n) [n] || u.rules.any fun q => Nat.beq q.1 n

theorem nfkd_fine : Nfkd.pages.fine = true := by decide +kernel

theorem nfkd_checks : (withTree Nfkd.pages fun g => decomposes Nfkd.pages g && extends_ Nfd.pages g) = true := by decide +kernel

/-! ### What the checks say -/

theorem noSyllable_iff {n : Nat} (h : noSyllable n = true) : n < 0xAC00 ∨ 0xD7A3 < n := by
  simpa [noSyllable, Bool.or_eq_true, Nat.blt_eq] using h

theorem noJamo_iff {n : Nat} (h : noJamo n = true) : n < 0x1100 ∨ 0x1200 ≤ n := by
  simpa [noJamo, Bool.or_eq_true, Nat.blt_eq, Nat.ble_eq] using h

/-- The decompositions of a table of characters. -/
theorem data_rule {f : Pages} {d : Datum} {v : List Datum} (h : tableOf f.data d = some v) : ∃ r ∈ f.rules, d = uniDatum r.1 ∧ v = r.2.map uniDatum := by
  have := lookup_some h
  obtain ⟨r, hr, e⟩ := List.mem_map.1 this
  simp only [Prod.mk.injEq, List.cons.injEq, and_true] at e
  exact ⟨r, hr, e.1.symm, e.2.symm⟩

theorem data_singles (f : Pages) : Singles f.data := by
  intro r hr
  obtain ⟨q, _, rfl⟩ := List.mem_map.1 hr
  rfl

structure Decomposes (f : Pages) : Prop where
  fine : f.fine = true
  keys : ∀ r ∈ f.rules, (r.1 < 0xAC00 ∨ 0xD7A3 < r.1) ∧ (r.1 < 0x1100 ∨ 0x1200 ≤ r.1)
  vals : ∀ r ∈ f.rules, ∀ m ∈ r.2, (m < 0xAC00 ∨ 0xD7A3 < m) ∧ f.find m = none
  comps : ∀ r ∈ Nfc.rules, (f.find r.2.2.1).getD [r.2.2.1] = (f.find r.1).getD [r.1] ++ (f.find r.2.1).getD [r.2.1]

theorem decomposes_iff {f : Pages} (hf : f.fine = true) (h : decomposes f (fun n => (f.find n).getD [n]) = true) : Decomposes f := by
  unfold decomposes at h
  rw [Bool.and_eq_true] at h
  have h1 : ∀ r ∈ f.rules, noSyllable r.1 = true ∧ noJamo r.1 = true ∧ r.2 ≠ [r.1] ∧
      ∀ m ∈ r.2, noSyllable m = true ∧ (f.find m).getD [m] = [m] := by
    intro r hr
    have := List.all_eq_true.1 h.1 r hr
    simp only [Bool.and_eq_true, Bool.not_eq_true', List.all_eq_true] at this
    obtain ⟨⟨⟨a, b⟩, c⟩, d⟩ := this
    refine ⟨a, b, ?_, fun m hm => ⟨(d m hm).1, sameList_eq (d m hm).2⟩⟩
    intro e
    rw [e] at c
    simp [sameList] at c
  refine ⟨hf, fun r hr => ⟨noSyllable_iff (h1 r hr).1, noJamo_iff (h1 r hr).2.1⟩, ?_, ?_⟩
  · intro r hr m hm
    obtain ⟨k1, k2⟩ := (h1 r hr).2.2.2 m hm
    refine ⟨noSyllable_iff k1, ?_⟩
    cases hfm : f.find m with
    | none => rfl
    | some w =>
      rw [hfm, Option.getD_some] at k2
      exact absurd k2 (h1 _ (Pages.find_mem hfm)).2.2.1
  · intro r hr
    exact sameList_eq (List.all_eq_true.1 h.2 r hr)

theorem scalar_small {n : Nat} (h : Scalar n) : n < 2 ^ 32 := by
  unfold Scalar at h
  omega

theorem data_uni {f : Pages} (hf : f.fine = true) {n : Nat} (hn : n < 2 ^ 32) : tableOf f.data (uniDatum n) = (f.find n).map (List.map uniDatum) :=
  data_lookup hf hn

theorem atoms_data {f : Pages} (h : Decomposes f) {n : Nat} (hn : n < 2 ^ 32) (hs : n < 0xAC00 ∨ 0xD7A3 < n) :
    atoms (tableOf f.data) (uniDatum n) = ((f.find n).getD [n]).map uniDatum := by
  rw [atoms, data_uni h.fine hn]
  have notS : ∀ m, m < 2 ^ 32 → (m < 0xAC00 ∨ 0xD7A3 < m) → isS (uniDatum m) = false := by
    intro m hm h
    rw [isS, uni_class hm]; simp; omega
  cases hf : f.find n with
  | none =>
    simp only [Option.map_none, Option.getD_none, List.map_cons, List.map_nil]
    exact decomposed_id (by simp [notS n hn hs])
  | some v =>
    simp only [Option.map_some, Option.getD_some]
    refine decomposed_id ?_
    intro d hd
    obtain ⟨m, hm, rfl⟩ := List.mem_map.1 hd
    exact notS m (scalar_small ((fine_rule h.fine (Pages.find_mem hf)).2.1 m hm)) (h.vals _ (Pages.find_mem hf) m hm).1

theorem decomposes_tables {f : Pages} (h : Decomposes f) : Tables (tableOf f.data) nfcTable where
  expanded := by
    intro d v hd x hx
    obtain ⟨r, hr, rfl, rfl⟩ := data_rule hd
    obtain ⟨m, hm, rfl⟩ := List.mem_map.1 hx
    have h1 := h.vals r hr m hm
    have h2 := scalar_small ((fine_rule h.fine hr).2.1 m hm)
    refine ⟨by rw [data_uni h.fine h2, h1.2]; rfl, ?_⟩
    rw [isS, uni_class h2]; simp; omega
  jamoFree := by
    intro n h1 h2
    cases hd : tableOf f.data (uniDatum n) with
    | none => rfl
    | some v =>
      obtain ⟨r, hr, e, _⟩ := data_rule hd
      have := h.keys r hr
      have := uni_inj (by omega) (scalar_small (fine_rule h.fine hr).1) e
      omega
  syllables := by
    intro n h1 h2
    cases hd : tableOf f.data (uniDatum n) with
    | none => rfl
    | some v =>
      obtain ⟨r, hr, e, _⟩ := data_rule hd
      have := h.keys r hr
      have := uni_inj (by omega) (scalar_small (fine_rule h.fine hr).1) e
      omega
  std := by
    intro d v hd x hx
    obtain ⟨r, hr, rfl, rfl⟩ := data_rule hd
    obtain ⟨m, hm, rfl⟩ := List.mem_map.1 hx
    have h2 := scalar_small ((fine_rule h.fine hr).2.1 m hm)
    exact ⟨std_uni h2, by rw [char_uni h2]; simp⟩
  hangulFree := C67_tables.hangulFree
  undone := by
    intro s c x hx
    obtain ⟨r, hr, rfl, rfl, rfl⟩ := nfcTable_rule hx
    have f1 := rule_facts hr
    have := List.all_eq_true.1 nfc_rules_fine r hr
    simp only [Bool.and_eq_true, Bool.or_eq_true, Nat.blt_eq, Nat.ble_eq, beq_iff_eq] at this
    refine ⟨std_uni f1.2.2.1, ?_⟩
    rw [atoms_data h f1.1 (by omega), atoms_data h f1.2.1 (by omega), atoms_data h f1.2.2.1 (by omega), h.comps r hr]
    simp

/-! ### The tables of NFKD -/

/-- The rules of /repo/modules/inter/_NFKD.txt. -/
def nfkdRules : Rules Datum (List Datum) := Nfkd.pages.data

/-- The decomposition of a datum in that table. -/
def nfkdTable : Datum → Option (List Datum) := tableOf nfkdRules

theorem nfkd_decomposes : Decomposes Nfkd.pages := by
  have := withTree_iff nfkd_checks
  rw [Bool.and_eq_true] at this
  exact decomposes_iff nfkd_fine this.1

theorem C78_tables : Tables nfkdTable nfcTable := decomposes_tables nfkd_decomposes

/-- Composites are characters written in the standard way. -/
theorem full_std {t : Datum → Option (List Datum)} (hu : Undone t (withHangul nfcTable)) {s c x : Datum} (hs : Std s) (hc : Std c)
    (h : withHangul nfcTable s c = some x) : Std x ∧ char? x ≠ none := by
  refine ⟨(hu s c x hs hc h).1, ?_⟩
  unfold withHangul at h
  cases hn : nfcTable s c with
  | some y =>
    rw [hn] at h
    simp only [Option.some.injEq] at h
    subst h
    intro k
    have := (C30_table_starters s c y hn).2.1
    rw [k] at this
    simp at this
  | none =>
    rw [hn] at h
    simp only at h
    unfold hangulPair at h
    split at h
    · simp only [Option.some.injEq] at h; subst h; simp [uniDatum, char?]
    · split at h
      · simp only [Option.some.injEq] at h; subst h; simp [uniDatum, char?]
      · simp at h

theorem composeFrom_all {comb : Datum → Datum → Option Datum} {P : Datum → Prop} (hP : ∀ s c x, P s → P c → comb s c = some x → P x)
    (hc : ∀ d, P d → char? d ≠ none) :
    ∀ (ds : List Datum) (o : Option (Datum × List Datum)), (∀ d ∈ ds, P d) → (∀ s p, o = some (s, p) → ∀ d ∈ s :: p, P d) →
      ∀ d ∈ composeFrom comb o ds, P d := by
  intro ds
  induction ds with
  | nil =>
    intro o _ ho
    cases o with
    | none => intro d hd; simp [composeFrom] at hd
    | some q => exact ho q.1 q.2 rfl
  | cons c ds ih =>
    intro o hds ho
    have hc1 := hds c (by simp)
    have hds' : ∀ d ∈ ds, P d := fun d h => hds d (by simp [h])
    have start : ∀ d ∈ composeFrom comb (some (c, [])) ds, P d := ih (some (c, [])) hds' (by
      intro s' p' e
      simp at e
      rw [← e.1, e.2]
      intro d hd
      simp at hd
      subst hd
      exact hc1)
    have hcs : (char? c).isSome = true := Option.isSome_iff_ne_none.2 (hc c hc1)
    cases o with
    | none =>
      simp only [composeFrom, hcs, if_true]
      split
      · exact start
      · intro d hd
        rcases List.mem_cons.1 hd with rfl | hd
        · exact hc1
        · exact ih none hds' (by simp) d hd
    | some q =>
      obtain ⟨s, p⟩ := q
      have h1 := ho s p rfl
      simp only [composeFrom, hcs, if_true]
      cases hx : (if unblocked p c then comb s c else none) with
      | some x =>
        simp only
        refine ih (some (x, p)) hds' ?_
        intro s' p' e
        simp at e
        rw [← e.1, ← e.2]
        split at hx
        · intro d hd
          rcases List.mem_cons.1 hd with rfl | hd
          · exact hP s c _ (h1 s (by simp)) hc1 hx
          · exact h1 d (by simp [hd])
        · simp at hx
      | none =>
        simp only
        split
        · intro d hd
          rcases List.mem_append.1 hd with hd | hd
          · exact h1 d hd
          · exact start d hd
        · refine ih (some (s, p ++ [c])) hds' ?_
          intro s' p' e
          simp at e
          rw [← e.1, ← e.2]
          intro d hd
          rw [← List.cons_append] at hd
          rcases List.mem_append.1 hd with hd | hd
          · exact h1 d hd
          · simp at hd; subst hd; exact hc1

/-! ### Ordering between two expansions -/

theorem reorderFrom_nonzero (cls : Datum → Nat) : ∀ (l r Z : List Datum), (∀ d ∈ l, cls d ≠ 0) → reorderFrom cls r (l ++ Z) = reorderFrom cls (r ++ l) Z
  | [], r, Z, _ => by simp
  | d :: l, r, Z, h => by
    rw [List.cons_append, reorderFrom, if_neg (h d (by simp)), reorderFrom_nonzero cls l _ Z fun x hx => h x (by simp [hx])]
    simp

theorem reorderFrom_prefix (cls : Datum → Nat) {X Y : List Datum} (h : ∀ r, reorderFrom cls r X = reorderFrom cls r Y) :
    ∀ A r, reorderFrom cls r (A ++ X) = reorderFrom cls r (A ++ Y)
  | [], r => h r
  | a :: A, r => by
    rw [List.cons_append, List.cons_append, reorderFrom, reorderFrom, reorderFrom_prefix cls h A, reorderFrom_prefix cls h A]

theorem byClass_filter (r : List Datum) (c : Nat) : ((byClass combining r).filter fun d => combining d == c) = r.filter fun d => combining d == c := by
  have key : ∀ n, ((List.range n).flatMap fun k => r.filter fun d => combining d == k).filter (fun d => combining d == c) =
      if c < n then r.filter (fun d => combining d == c) else [] := by
    intro n
    induction n with
    | zero => simp
    | succ n ih =>
      rw [List.range_succ, List.flatMap_append, List.filter_append, ih]
      simp only [List.flatMap_cons, List.flatMap_nil, List.append_nil, List.filter_filter]
      by_cases h1 : c < n
      · rw [if_pos h1, if_pos (by omega)]
        have : (r.filter fun d => combining d == c && combining d == n) = [] := by
          rw [List.filter_eq_nil_iff]
          intro d _ hd
          simp at hd
          omega
        rw [this, List.append_nil]
      · rw [if_neg h1, List.nil_append]
        by_cases h2 : c = n
        · subst h2
          rw [if_pos (by omega)]
          congr 1
          funext d
          simp
        · rw [if_neg (by omega), List.filter_eq_nil_iff]
          intro d _ hd
          simp at hd
          omega
  rw [byClass, key]
  by_cases h : c < 256
  · rw [if_pos h]
  · rw [if_neg h, eq_comm, List.filter_eq_nil_iff]
    intro d _ hd
    have := combining_lt d
    simp at hd
    omega

/-- What replaces no marks may be done before or after the marks are sorted. -/
theorem reorder_between {f : Datum → List Datum} : ∀ (ds r r' : List Datum), (∀ d ∈ r ++ ds, combining d ≠ 0 → f d = [d]) → (∀ d ∈ r, combining d ≠ 0) →
    reorderFrom combining r' ((reorderFrom combining r ds).flatMap f) = reorderFrom combining r' ((r ++ ds).flatMap f) := by
  have fix : ∀ l : List Datum, (∀ d ∈ l, combining d ≠ 0 ∧ f d = [d]) → l.flatMap f = l := by
    intro l
    induction l with
    | nil => intro _; rfl
    | cons d l ih => intro h; rw [List.flatMap_cons, (h d (by simp)).2, ih fun x hx => h x (by simp [hx])]; rfl
  have cls : ∀ (r r' Z : List Datum), (∀ d ∈ r, combining d ≠ 0) → reorderFrom combining r' (byClass combining r ++ Z) = reorderFrom combining r' (r ++ Z) := by
    intro r r' Z h
    rw [reorderFrom_nonzero _ _ _ _ fun d hd => h d ((byClass_mem r d).1 hd), reorderFrom_nonzero _ _ _ _ h]
    refine reorderFrom_congr _ Z ?_
    intro c
    rw [List.filter_append, List.filter_append, byClass_filter]
  intro ds
  induction ds with
  | nil =>
    intro r r' h hr
    rw [List.append_nil] at h ⊢
    rw [reorderFrom, fix r fun d hd => ⟨hr d hd, h d hd (hr d hd)⟩, fix _ fun d hd => ⟨hr d ((byClass_mem r d).1 hd), h d ((byClass_mem r d).1 hd) (hr d ((byClass_mem r d).1 hd))⟩]
    have := cls r r' [] hr
    rwa [List.append_nil, List.append_nil] at this
  | cons d ds ih =>
    intro r r' h hr
    rw [reorderFrom]
    split
    · rename_i hd
      rw [List.flatMap_append, List.flatMap_append, List.flatMap_cons, List.flatMap_cons,
        fix r fun d hm => ⟨hr d hm, h d (by simp [hm]) (hr d hm)⟩,
        fix _ fun d hm => ⟨hr d ((byClass_mem r d).1 hm), h d (by simp [(byClass_mem r d).1 hm]) (hr d ((byClass_mem r d).1 hm))⟩, cls r r' _ hr]
      rw [← List.append_assoc, ← List.append_assoc]
      refine reorderFrom_prefix _ ?_ _ _
      intro r''
      exact ih [] r'' (fun x hx => h x (by simp at hx; simp [hx])) (by simp)
    · rename_i hd
      rw [ih (r ++ [d]) r' (by simpa using h) (by
        intro x hx
        rcases List.mem_append.1 hx with hx | hx
        · exact hr x hx
        · simp at hx; subst hx; exact hd)]
      simp

/-! ### The four forms -/

/-- C78.  Form KD of form KD is form KD. -/
theorem C78_nfkd_idempotent (ds : List Datum) : nfd nfkdTable (nfd nfkdTable ds) = nfd nfkdTable ds :=
  nfd_idem C78_tables.expanded C78_tables.jamoFree ds

/-- C78.  A text and its form KC have the same form KD. -/
theorem C78_nfkd_nfkc {ds : List Datum} (h : IsText ds) : nfd nfkdTable (nfc nfkdTable nfcTable ds) = nfd nfkdTable ds := by
  rw [nfc, nfd_compose C78_tables.full (nfd_atoms C78_tables.expanded C78_tables.jamoFree ds) (fun x hx => (nfd_std C78_tables.std h x hx).1),
    C78_nfkd_idempotent]

/-- C78.  Form KC of form KC is form KC. -/
theorem C78_nfkc_idempotent {ds : List Datum} (h : IsText ds) :
    nfc nfkdTable nfcTable (nfc nfkdTable nfcTable ds) = nfc nfkdTable nfcTable ds := by
  rw [nfc, C78_nfkd_nfkc h, nfc]

/-- C78.  Two texts have the same form KC exactly if they have the same form KD. -/
theorem C78_same {ds es : List Datum} (hd : IsText ds) (he : IsText es) :
    nfc nfkdTable nfcTable ds = nfc nfkdTable nfcTable es ↔ nfd nfkdTable ds = nfd nfkdTable es := by
  constructor
  · intro h
    have := congrArg (nfd nfkdTable) h
    rwa [C78_nfkd_nfkc hd, C78_nfkd_nfkc he] at this
  · intro h
    rw [nfc, nfc, h]

theorem nfkd_extends : (∀ r ∈ Nfd.rules, r.2.flatMap (fun n => (Nfkd.pages.find n).getD [n]) = (Nfkd.pages.find r.1).getD [r.1] ∧
      (Nfkd.pages.find r.1).getD [r.1] ≠ [r.1]) ∧
    ∀ n, combining (uniDatum n) ≠ 0 → n < 2 ^ 32 → (Nfkd.pages.find n).getD [n] = [n] ∨ ∃ r ∈ Nfd.rules, r.1 = n := by
  have h := withTree_iff nfkd_checks
  rw [Bool.and_eq_true] at h
  have h := h.2
  unfold extends_ at h
  rw [Bool.and_eq_true] at h
  refine ⟨fun r hr => ?_, ?_⟩
  · have := List.all_eq_true.1 h.1 r hr
    rw [Bool.and_eq_true, Bool.not_eq_true'] at this
    refine ⟨sameList_eq this.1, fun e => ?_⟩
    have k : sameList ((Nfkd.pages.find r.1).getD [r.1]) [r.1] = false := this.2
    rw [e] at k
    simp [sameList] at k
  intro n hn hs
  unfold combining valueIn at hn
  rw [char_uni hs, Option.bind_some] at hn
  cases hf : Range.cccTable.find? fun r => decide (In n r) with
  | none => rw [hf] at hn; simp at hn
  | some r =>
    have h1 := List.find?_some hf
    have h2 := List.all_eq_true.1 h.2 r (List.mem_of_find?_eq_some hf)
    have h1 := of_decide_eq_true h1
    unfold In at h1
    have h3 := List.all_eq_true.1 h2 n (List.mem_range'_1.2 ⟨h1.1, by omega⟩)
    rw [Bool.or_eq_true, List.any_eq_true] at h3
    rcases h3 with h3 | ⟨q, hq, h3⟩
    · exact .inl (sameList_eq h3)
    · exact .inr ⟨q, hq, Nat.eq_of_beq_eq_true h3⟩

theorem chr_lt (d : Datum) : chr d < 2 ^ 32 := by
  unfold chr char?
  split
  · exact Nat.mod_lt _ (by omega)
  · simp

theorem nfdTable_none_of {n : Nat} (hn : n < 2 ^ 32) (h : nfdTable (uniDatum n) = none) : ¬ ∃ r ∈ Nfd.rules, r.1 = n := by
  rintro ⟨r, hr, e⟩
  rw [nfdTable_uni hn, Option.map_eq_none_iff, find_pages, Option.map_eq_none_iff, List.find?_eq_none] at h
  exact h r hr (by rw [e]; exact Nat.beq_refl n)

/-- What has a form D decomposition has a form KD decomposition; an atom of KD is an atom of D. -/
theorem atom_D {d : Datum} (h : Atom nfkdTable d) : Atom nfdTable d := by
  refine ⟨?_, h.2⟩
  cases hd : nfdTable d with
  | none => rfl
  | some v =>
    obtain ⟨r, hr, rfl, rfl⟩ := nfdTable_rule hd
    have hs := (nfd_rule hr).1
    have h2 := h.1
    rw [show nfkdTable (uniDatum r.1) = _ from data_uni nfkd_fine (by omega), Option.map_eq_none_iff] at h2
    exact absurd (by rw [h2]; rfl) (nfkd_extends.1 r hr).2

/-- Expanding the canonical decomposition further gives the compatibility decomposition. -/
theorem atoms_atoms {d : Datum} (hd : Std d) (hc : char? d ≠ none) : (atoms nfdTable d).flatMap (atoms nfkdTable) = atoms nfkdTable d := by
  have hn := chr_lt d
  by_cases hs : chr d < 0xAC00 ∨ 0xD7A3 < chr d
  · rw [hd, atoms_uni hn hs, show atoms nfkdTable (uniDatum (chr d)) = _ from atoms_data nfkd_decomposes hn hs]
    cases hf : Nfd.find (chr d) with
    | none =>
      rw [Option.getD_none]
      simp only [List.map_cons, List.map_nil, List.flatMap_cons, List.flatMap_nil, List.append_nil]
      exact atoms_data nfkd_decomposes hn hs
    | some v =>
      rw [Option.getD_some]
      have hr := find_rule hf
      rw [← (nfkd_extends.1 _ hr).1]
      have hv := (nfd_rule hr).2.2.2
      simp only at hv ⊢
      clear hr hf
      induction v with
      | nil => rfl
      | cons m v ih =>
        obtain ⟨k1, k2, _⟩ := hv m (by simp)
        rw [List.map_cons, List.flatMap_cons, List.flatMap_cons, List.map_append, ih fun x hx => hv x (by simp [hx]),
          show atoms nfkdTable (uniDatum m) = _ from atoms_data nfkd_decomposes (by omega) k2]
  · have h1 : nfdTable d = none := by rw [hd]; exact C67_tables.syllables _ (by omega) (by omega)
    have h2 : nfkdTable d = none := by rw [hd]; exact C78_tables.syllables _ (by omega) (by omega)
    have e : atoms nfdTable d = atoms nfkdTable d := by rw [atoms, atoms, h1, h2]
    rw [e]
    exact flatMap_atoms fun x hx => atoms_are C78_tables.expanded C78_tables.jamoFree d x hx

/-- C78.  A text and its form D have the same form KD. -/
theorem C78_nfkd_nfd {ds : List Datum} (h : IsText ds) : nfd nfkdTable (nfd nfdTable ds) = nfd nfkdTable ds := by
  have h1 := nfd_std C67_tables.std h
  have h2 := nfd_atoms C67_tables.expanded C67_tables.jamoFree ds
  rw [nfd_eq (t := nfkdTable), nfd_eq (t := nfkdTable) ds, nfd_eq (t := nfdTable)]
  rw [nfd_eq (t := nfdTable)] at h1 h2
  unfold reorder at h1 h2 ⊢
  rw [reorder_between (ds.flatMap (atoms nfdTable)) [] [] ?_ (by simp), List.nil_append]
  · congr 1
    clear h1 h2
    induction ds with
    | nil => rfl
    | cons d ds ih =>
      rw [List.flatMap_cons, List.flatMap_append, List.flatMap_cons, atoms_atoms (h d (by simp)).1 (h d (by simp)).2, ih fun x hx => h x (by simp [hx])]
  · intro d hd hc
    rw [List.nil_append] at hd
    have hd := (reorder_mem _ d).2 hd
    have k1 := h1 d hd
    have k2 := h2 d hd
    have hn := chr_lt d
    have hc' := hc
    rw [k1.1] at hc'
    refine atoms_atom ⟨?_, k2.2⟩
    rcases nfkd_extends.2 (chr d) hc' hn with e | e
    · cases hf : nfkdTable d with
      | none => rfl
      | some v =>
        obtain ⟨r, hr, e1, _⟩ := data_rule hf
        rw [k1.1] at e1 hf
        rw [show nfkdTable (uniDatum (chr d)) = _ from data_uni nfkd_fine hn] at hf
        cases hg : Nfkd.pages.find (chr d) with
        | none => rw [hg] at hf; simp at hf
        | some w =>
          rw [hg, Option.getD_some] at e
          have := (nfkd_decomposes.vals _ (Pages.find_mem hg) (chr d) (by rw [e]; simp)).2
          rw [hg] at this
          simp at this
    · have := k2.1
      rw [k1.1] at this
      exact absurd e (nfdTable_none_of hn this)

/-- C78.  A text in form KD is in form D. -/
theorem C78_nfd_nfkd (ds : List Datum) : nfd nfdTable (nfd nfkdTable ds) = nfd nfkdTable ds := by
  rw [nfd_of_atoms fun x hx => atom_D (nfd_atoms C78_tables.expanded C78_tables.jamoFree ds x hx), nfd_eq, reorder_idem]

theorem nfc_text {t : Datum → Option (List Datum)} (hT : Tables t nfcTable) {ds : List Datum} (h : IsText ds) : IsText (nfc t nfcTable ds) := by
  have h1 := nfd_std hT.std h
  exact composeFrom_all (P := fun d => Std d ∧ char? d ≠ none) (fun s c x hs hc hx => full_std hT.full hs.1 hc.1 hx) (fun d h => h.2) _ none h1 (by simp)

/-- C78.  A text and its form C have the same form KD, and so the same form KC. -/
theorem C78_nfkd_nfc {ds : List Datum} (h : IsText ds) :
    nfd nfkdTable (nfc nfdTable nfcTable ds) = nfd nfkdTable ds ∧ nfc nfkdTable nfcTable (nfc nfdTable nfcTable ds) = nfc nfkdTable nfcTable ds := by
  have e : nfd nfkdTable (nfc nfdTable nfcTable ds) = nfd nfkdTable ds := by
    rw [← C78_nfkd_nfd (nfc_text C67_tables h), C67_nfd_nfc h, C78_nfkd_nfd h]
  exact ⟨e, by rw [nfc, e, nfc]⟩

/-- C78.  A text in form KC is in form C. -/
theorem C78_nfc_nfkc {ds : List Datum} (h : IsText ds) : nfc nfdTable nfcTable (nfc nfkdTable nfcTable ds) = nfc nfkdTable nfcTable ds := by
  have h1 := nfd_atoms C78_tables.expanded C78_tables.jamoFree ds
  have e : nfd nfdTable (nfc nfkdTable nfcTable ds) = nfd nfkdTable ds := by
    rw [nfc, nfd_compose C67_tables.full (fun x hx => atom_D (h1 x hx)) (fun x hx => (nfd_std C78_tables.std h x hx).1), C78_nfd_nfkd]
  rw [nfc, e, nfc]

/-! ### The conversions -/

variable {π : Type} {st : Nat → Static π} {ip : Nat → Nat → π → π} {ins : Ins π} {pre post : List (Proc π)} {s : Static π}

/-- C78.  The conversion NFKD (`_NFKD:_NF-HANGUL-DECOMPOSITION:_NF-ORDER`, /repo/modules/inter/alias), anywhere in a conversion, whatever
the chunking and the output modes: the normalisation form KD of the Unicode standard with the decompositions of
/repo/modules/inter/_NFKD.txt, for every sequence of characters.  (`junk`: the first line of the file, see C67.) -/
theorem C78_nfkd {s1 s2 s3 : Static π} (h : PlacedN st ip ins pre [s1, s2, s3] post) {junk : Rules Datum (List Datum)} (hj : Aside junk)
    (hs1 : PhaseTables s1 (.rewrite [junk ++ nfkdRules])) {e2 : Lens π Unit} (hs2 : Only s2 .inter (plain e2 hangulDecompose))
    {e3 : Lens π (List (Int × Datum))} (hs3 : Only s3 .inter (flushing e3 order)) (hi3 : ∀ x, ip (pre.length + 3) 0 x = x)
    (hq : e3.get ((ins.ph (pre.length + 3)).priv 0) = []) :
    Does st ip ins pre (fun ds => ∀ d ∈ ds, char? d ≠ none) (nfd nfkdTable) post :=
  formD_does (data_singles _) C78_tables.std h hj hs1 hs2 hs3 hi3 hq

/-- C78.  The conversion NFKC (`NFKD:_NFC:_NF-HANGUL-COMPOSITION`), anywhere in a conversion: the normalisation form KC. -/
theorem C78_nfkc {s1 s2 s3 s4 s5 : Static π} (h : PlacedN st ip ins pre [s1, s2, s3, s4, s5] post) {junk : Rules Datum (List Datum)} (hj : Aside junk)
    (hs1 : PhaseTables s1 (.rewrite [junk ++ nfkdRules])) {e2 : Lens π Unit} (hs2 : Only s2 .inter (plain e2 hangulDecompose))
    {e3 : Lens π (List (Int × Datum))} (hs3 : Only s3 .inter (flushing e3 order)) (hi3 : ∀ x, ip (pre.length + 3) 0 x = x)
    (hq : e3.get ((ins.ph (pre.length + 3)).priv 0) = [])
    {e4 : Lens π Nfc} (hs4 : Only s4 .inter (nfcCodec e4 nfcTable)) (hi4 : ∀ x, e4.get (ip (pre.length + 4) 0 x) = (e4.get x).init)
    {e5 : Lens π Hangul} (hs5 : Only s5 .inter (flushing e5 hangulCompose))
    (hi5 : ∀ x, e5.get (ip (pre.length + 5) 0 x) = { (e5.get x) with status := 0 }) :
    Does st ip ins pre IsText (nfc nfkdTable nfcTable) post :=
  formC_does (data_singles _) C78_tables h hj hs1 hs2 hs3 hi3 hq hs4 hi4 hs5 hi5

/-- The phases of NFKC. -/
def nfkcPhases (k : Nat) : Static NfcPriv := if k = 1 then ⟨.inter, fun _ => trieCodec (symbolRules nfkdRules), 0⟩ else nfcPhases k

-- The instance of the five phases meets the hypotheses.  The ligature fi, superscript 2 and a half-width katakana KA with its voicing mark become
-- `fi2` and full-width GA.
example : Does nfkcPhases nfcInits { ph := fun _ => { priv := fun _ => {} }, phasen := 5 } [] IsText (nfc nfkdTable nfcTable) [] := by
  refine C78_nfkc (pre := []) (post := []) (s1 := nfkcPhases 1) (s2 := nfkcPhases 2) (s3 := nfkcPhases 3) (s4 := nfkcPhases 4) (s5 := nfkcPhases 5)
    (junk := []) ?_ (by intro r hr; simp at hr) ?_ (e2 := lens2) (only_one _ _) (e3 := lens3) (only_one _ _) (by intro x; rfl) rfl
    (e4 := lens4) (only_one _ _) (by intro x; rfl) (e5 := lens5) (only_one _ _) (by intro x; rfl)
  · refine ⟨by intro k h; simp at h, ?_, by intro k h; simp at h, by intro k h; simp at h, by intro k h; simp at h, rfl⟩
    intro k h
    match k, h with
    | 0, _ => rfl
    | 1, _ => rfl
    | 2, _ => rfl
    | 3, _ => rfl
    | 4, _ => rfl
  · refine ⟨rfl, rfl, ?_, fun R hR => by simp at hR; subst hR; exact data_good nfkd_fine⟩
    intro j hj
    simp at hj
    subst hj
    refine represents_trie _ ?_
    intro r hr
    obtain ⟨r0, h0, rfl⟩ := List.mem_map.1 hr
    have := data_good nfkd_fine r0 h0
    exact symbols_ne this.1 fun d hd => (this.2.1 d hd).1

example : nfc nfkdTable nfcTable [[1, 0xFB, 1], [1, 0xB2], [1, 0xFF, 0x76], [1, 0xFF, 0x9E]] = [[1, 0x66], [1, 0x69], [1, 0x32], [1, 0x30, 0xAC]] := by
  decide +kernel

end Verif.Props
