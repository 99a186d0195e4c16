import Verif.Proofs.Normalize
import Verif.Proofs.TableMap
import Verif.Proofs.PlacedN
import Verif.Proofs.MkStatic
import Verif.Model.NfdTable
/-
C67: the conversions NFD and NFC as a whole.
-/
namespace Verif.Props
open Verif.Spec
open Verif.Engine hiding Datum step
open Verif.Inter (plain flushing order hangulCompose hangulDecompose Hangul)

/-! ### The tables the codecs come with -/

/-- The rules of /repo/modules/inter/_NFD.txt. -/
def nfdRules : Rules Datum (List Datum) := Nfd.rules.map fun r => ([uniDatum r.1], r.2.map uniDatum)

/-- The decomposition of a datum in that table. -/
def nfdTable (d : Datum) : Option (List Datum) := lookup nfdRules [d]

/-- The decomposition of a number, looked up by its upper bytes. -/
def Nfd.find (n : Nat) : Option (List Nat) :=
  (((Nfd.pages.filter fun p => Nat.beq p.1 (n / 256)).flatMap Prod.snd).find? fun e => Nat.beq e.1 n).map Prod.snd

set_option maxRecDepth 100000 in
theorem pages_ok : (Nfd.pages.all fun p => p.2.all fun e => Nat.beq (e.1 / 256) p.1) = true := by decide +kernel

set_option maxRecDepth 100000 in
theorem nfd_rules_fine : (Nfd.rules.all fun r =>
    Nat.blt r.1 0x110000 && (Nat.blt r.1 0x1100 || Nat.ble 0x1200 r.1) && (Nat.blt r.1 0xAC00 || Nat.blt 0xD7A3 r.1) &&
    r.2.all fun m => Nat.blt m 0x110000 && (Nat.blt m 0xAC00 || Nat.blt 0xD7A3 m) && (Nfd.find m).isNone) = true := by decide +kernel

set_option maxRecDepth 100000 in
theorem nfc_rules_fine : (Nfc.rules.all fun r =>
    (Nat.blt r.1 0x1100 || Nat.ble 0x1200 r.1) && (Nat.blt r.1 0xAC00 || Nat.blt 0xD7A3 r.1) &&
    (Nat.blt r.2.1 0x1100 || Nat.ble 0x1200 r.2.1) && (Nat.blt r.2.1 0xAC00 || Nat.blt 0xD7A3 r.2.1) &&
    (Nat.blt r.2.2.1 0x1100 || Nat.ble 0x1200 r.2.2.1) && (Nat.blt r.2.2.1 0xAC00 || Nat.blt 0xD7A3 r.2.2.1) &&
    Nfd.find r.2.2.1 == some ((Nfd.find r.1).getD [r.1] ++ (Nfd.find r.2.1).getD [r.2.1])) = true := by decide +kernel

theorem find_pages (n : Nat) : Nfd.find n = (Nfd.rules.find? fun e => Nat.beq e.1 n).map Prod.snd := by
  unfold Nfd.find Nfd.rules
  have key : ∀ ps : List (Nat × List (Nat × List Nat)), (ps.all fun p => p.2.all fun e => Nat.beq (e.1 / 256) p.1) = true →
      ((ps.filter fun p => Nat.beq p.1 (n / 256)).flatMap Prod.snd).find? (fun e => Nat.beq e.1 n) =
        (ps.flatMap Prod.snd).find? fun e => Nat.beq e.1 n := by
    intro ps
    induction ps with
    | nil => intro _; rfl
    | cons p ps ih =>
      intro h
      simp only [List.all_cons, Bool.and_eq_true] at h
      rw [List.filter_cons]
      split
      · rw [List.flatMap_cons, List.flatMap_cons, List.find?_append, List.find?_append, ih h.2]
      · rename_i hk
        rw [List.flatMap_cons, List.find?_append, ih h.2]
        have : p.2.find? (fun e => Nat.beq e.1 n) = none := by
          rw [List.find?_eq_none]
          intro e he hn
          have := List.all_eq_true.1 h.1 e he
          simp only [Nat.beq_eq] at this hn hk
          rw [hn] at this
          exact hk this.symm
        rw [this]; rfl
  rw [key _ pages_ok]

/-- What is checked of each rule. -/
theorem nfd_rule {r : Nat × List Nat} (h : r ∈ Nfd.rules) :
    r.1 < 0x110000 ∧ (r.1 < 0x1100 ∨ 0x1200 ≤ r.1) ∧ (r.1 < 0xAC00 ∨ 0xD7A3 < r.1) ∧
      ∀ m ∈ r.2, m < 0x110000 ∧ (m < 0xAC00 ∨ 0xD7A3 < m) ∧ Nfd.find m = none := by
  have := List.all_eq_true.1 nfd_rules_fine r h
  simp only [Bool.and_eq_true, Bool.or_eq_true, Nat.blt_eq, Nat.ble_eq, List.all_eq_true, Option.isNone_iff_eq_none] at this
  obtain ⟨⟨⟨a, b⟩, c⟩, d⟩ := this
  exact ⟨a, b, c, fun m hm => ⟨(d m hm).1.1, (d m hm).1.2, (d m hm).2⟩⟩

theorem nfdTable_uni {n : Nat} (hn : n < 2 ^ 32) : nfdTable (uniDatum n) = (Nfd.find n).map (List.map uniDatum) := by
  rw [find_pages, nfdTable, nfdRules]
  have key : ∀ rs : List (Nat × List Nat), (∀ r ∈ rs, r.1 < 2 ^ 32) →
      lookup (rs.map fun r => ([uniDatum r.1], r.2.map uniDatum)) [uniDatum n] =
        ((rs.find? fun e => Nat.beq e.1 n).map Prod.snd).map (List.map uniDatum) := by
    intro rs
    induction rs with
    | nil => intro _; rfl
    | cons r rs ih =>
      intro h
      rw [List.map_cons, lookup, List.find?_cons]
      by_cases e : r.1 = n
      · simp [e]
      · have : ¬ ([uniDatum r.1] = [uniDatum n]) := by
          intro k
          simp only [List.cons.injEq, and_true] at k
          exact e (uni_inj (h r (by simp)) hn k)
        have e' : Nat.beq r.1 n = false := by
          cases hb : Nat.beq r.1 n with
          | false => rfl
          | true => exact absurd (Nat.eq_of_beq_eq_true hb) e
        simp only [e']
        rw [if_neg this]
        exact ih fun r hr => h r (by simp [hr])
  exact key _ fun r hr => by have := (nfd_rule hr).1; omega

theorem nfdTable_rule {d : Datum} {v : List Datum} (h : nfdTable d = some v) :
    ∃ r ∈ Nfd.rules, d = uniDatum r.1 ∧ v = r.2.map uniDatum := by
  have := lookup_some h
  rw [nfdRules] at this
  obtain ⟨r, hr, e⟩ := List.mem_map.1 this
  simp only [Prod.mk.injEq, List.cons.injEq, and_true] at e
  exact ⟨r, hr, e.1.symm, e.2.symm⟩

theorem find_rule {n : Nat} {v : List Nat} (h : Nfd.find n = some v) : (n, v) ∈ Nfd.rules := by
  rw [find_pages] at h
  cases hf : Nfd.rules.find? fun e => Nat.beq e.1 n with
  | none => rw [hf] at h; simp at h
  | some r =>
    rw [hf] at h
    simp only [Option.map_some, Option.some.injEq] at h
    have h1 : r.1 = n := by
      have := List.find?_some hf
      exact Nat.eq_of_beq_eq_true this
    have := List.mem_of_find?_eq_some hf
    rw [← h, ← h1]
    exact this

/-- The decomposition of a number that is not a syllable. -/
theorem atoms_uni {n : Nat} (hn : n < 2 ^ 32) (hs : n < 0xAC00 ∨ 0xD7A3 < n) :
    atoms nfdTable (uniDatum n) = ((Nfd.find n).getD [n]).map uniDatum := by
  rw [atoms, nfdTable_uni hn]
  have notS : ∀ m, m < 2 ^ 32 → (m < 0xAC00 ∨ 0xD7A3 < m) → isS (uniDatum m) = false := by
    intro m hm h
    rw [isS, uni_class hm]; simp; omega
  cases hf : Nfd.find n with
  | none =>
    simp only [Option.map_none, Option.getD_none, List.map_cons, List.map_nil]
    exact decomposed_id (by simp [notS n hn hs])
  | some v =>
    simp only [Option.map_some, Option.getD_some]
    refine decomposed_id ?_
    intro d hd
    obtain ⟨m, hm, rfl⟩ := List.mem_map.1 hd
    have := (nfd_rule (find_rule hf)).2.2.2 m hm
    exact notS m (by omega) this.2.1

/-- C67.  The two tables the codecs come with fit together: decompositions are fully expanded, composites decompose into what they are
composed of, and neither has to do with Hangul. -/
theorem C67_tables : Tables nfdTable nfcTable where
  expanded := by
    intro d v h x hx
    obtain ⟨r, hr, rfl, rfl⟩ := nfdTable_rule h
    obtain ⟨m, hm, rfl⟩ := List.mem_map.1 hx
    have := (nfd_rule hr).2.2.2 m hm
    refine ⟨by rw [nfdTable_uni (by omega), this.2.2]; rfl, ?_⟩
    rw [isS, uni_class (by omega)]; simp; omega
  jamoFree := by
    intro n h1 h2
    cases h : nfdTable (uniDatum n) with
    | none => rfl
    | some v =>
      obtain ⟨r, hr, e, _⟩ := nfdTable_rule h
      have := nfd_rule hr
      have := uni_inj (by omega) (by omega) e
      omega
  syllables := by
    intro n h1 h2
    cases h : nfdTable (uniDatum n) with
    | none => rfl
    | some v =>
      obtain ⟨r, hr, e, _⟩ := nfdTable_rule h
      have := nfd_rule hr
      have := uni_inj (by omega) (by omega) e
      omega
  std := by
    intro d v h x hx
    obtain ⟨r, hr, rfl, rfl⟩ := nfdTable_rule h
    obtain ⟨m, hm, rfl⟩ := List.mem_map.1 hx
    have := (nfd_rule hr).2.2.2 m hm
    exact ⟨std_uni (by omega), by rw [char_uni (by omega)]; simp⟩
  hangulFree := by
    intro s c x h
    obtain ⟨r, hr, rfl, rfl, rfl⟩ := nfcTable_rule h
    have f := rule_facts hr
    have := List.all_eq_true.1 nfc_rules_fine r hr
    simp only [Bool.and_eq_true, Bool.or_eq_true, Nat.blt_eq, Nat.ble_eq] at this
    have free : ∀ m, m < 2 ^ 32 → (m < 0x1100 ∨ 0x1200 ≤ m) → (m < 0xAC00 ∨ 0xD7A3 < m) → Free (uniDatum m) := by
      intro m h1 h2 h3
      unfold Free isL isV isT isS
      rw [uni_class h1, uni_class h1, uni_class h1, uni_class h1]
      simp only [decide_eq_false_iff_not]
      omega
    exact ⟨free _ f.1 (by omega) (by omega), free _ f.2.1 (by omega) (by omega), free _ f.2.2.1 (by omega) (by omega)⟩
  undone := by
    intro s c x h
    obtain ⟨r, hr, rfl, rfl, rfl⟩ := nfcTable_rule h
    have f := rule_facts hr
    have := List.all_eq_true.1 nfc_rules_fine r hr
    simp only [Bool.and_eq_true, Bool.or_eq_true, Nat.blt_eq, Nat.ble_eq, beq_iff_eq] at this
    refine ⟨std_uni f.2.2.1, ?_⟩
    rw [atoms_uni f.1 (by omega), atoms_uni f.2.1 (by omega), atoms_uni f.2.2.1 (by omega), this.2]
    simp

/-! ### The two forms -/

/-- A text: characters, written in the standard way. -/
def IsText (ds : List Datum) : Prop := ∀ d ∈ ds, Std d ∧ char? d ≠ none

/-- C67.  Form D of form D is form D. -/
theorem C67_nfd_idempotent (ds : List Datum) : nfd nfdTable (nfd nfdTable ds) = nfd nfdTable ds :=
  nfd_idem C67_tables.expanded C67_tables.jamoFree ds

/-- C67.  A text and its form C have the same form D: composition changes nothing but the spelling. -/
theorem C67_nfd_nfc {ds : List Datum} (h : IsText ds) : nfd nfdTable (nfc nfdTable nfcTable ds) = nfd nfdTable ds := by
  rw [nfc, nfd_compose C67_tables.full (nfd_atoms C67_tables.expanded C67_tables.jamoFree ds) (fun x hx => (nfd_std C67_tables.std h x hx).1),
    C67_nfd_idempotent]

/-- C67.  Form C of form C is form C. -/
theorem C67_nfc_idempotent {ds : List Datum} (h : IsText ds) :
    nfc nfdTable nfcTable (nfc nfdTable nfcTable ds) = nfc nfdTable nfcTable ds := by
  rw [nfc, C67_nfd_nfc h, nfc]

/-- C67.  Two texts have the same form C exactly if they have the same form D. -/
theorem C67_same {ds es : List Datum} (hd : IsText ds) (he : IsText es) :
    nfc nfdTable nfcTable ds = nfc nfdTable nfcTable es ↔ nfd nfdTable ds = nfd nfdTable es := by
  constructor
  · intro h
    have := congrArg (nfd nfdTable) h
    rwa [C67_nfd_nfc hd, C67_nfd_nfc he] at this
  · intro h
    rw [nfc, nfc, h]

/-! ### The conversions -/

variable {π : Type} {st : Nat → Static π} {ip : Nat → Nat → π → π} {ins : Ins π} {pre post : List (Proc π)} {s : Static π}

theorem decompose_real {e : Lens π Unit} (hs : Only s .inter (plain e hangulDecompose)) (p : Nat → π) :
    Realises s (fun q => q = p) { out := fun ds => decomposed (nonEmpty ds), ok := fun ds => ∀ d ∈ nonEmpty ds, char? d ≠ none } := by
  refine single_real (single_plain hs (by simp) (fun _ => rfl)) sound_decompose rfl trivial rfl ?_
  intro ds hb hu
  have := run_decompose (passes s) _ (nonEmpty_bytes hb).1 hu
  rw [show e.get (p 0) = () from rfl, this]
  exact ⟨rfl, rfl, by simp, fun _ _ => trivial⟩

theorem order_real {e : Lens π (List (Int × Datum))} (hs : Only s .inter (flushing e order)) {p : Nat → π} (hp : e.get (p 0) = []) :
    Realises s (fun q => q = p) { out := fun ds => reorder combining (nonEmpty ds), fin := fun _ q => e.get (q 0) = [] } := by
  refine single_real (single_flushing hs (by simp)) sound_order hp (by simp) rfl ?_
  intro ds hb _
  have := run_order (passes s) _ (nonEmpty_bytes hb).1 false [] (fun _ => rfl)
  rw [byClass_nil, show tagged [] = [] from rfl] at this
  rw [this]
  exact ⟨rfl, rfl, by simp, fun q hq => hq⟩

theorem compose_real {e : Lens π Hangul} (hs : Only s .inter (flushing e hangulCompose)) {p : Nat → π} (hp : (e.get (p 0)).status = 0) :
    Realises s (fun q => q = p) { out := fun ds => composed (nonEmpty ds) } := by
  refine single_real (single_flushing hs (by simp)) sound_compose rfl trivial rfl ?_
  intro ds hb _
  have h0 : e.get (p 0) = ⟨0, (e.get (p 0)).pending⟩ := by
    generalize e.get (p 0) = x at hp
    cases x
    simp at hp; simp [hp]
  rw [h0, passes_inter hs]
  exact ⟨rfl, ((run_compose _ (nonEmpty_bytes hb).1).1 _).symm, by simp, fun _ _ => trivial⟩

theorem nfc_real {e : Lens π Nfc} (hs : Only s .inter (nfcCodec e nfcTable)) {p : Nat → π} (h1 : (e.get (p 0)).on = false)
    (h2 : (e.get (p 0)).pending = []) :
    Realises s (fun q => q = p) { out := fun ds => compose nfcTable (nonEmpty ds), ok := fun ds => InOrder (nonEmpty ds) } := by
  have hreal := nfc_realises (s := s) ⟨hs.type, hs.one, hs.codec, fun s c x hx => ⟨by
      rintro rfl
      exact absurd (C30_table_starters s c [] hx).2.1 (by simp [char?]), (C30_table_starters s c x hx).1⟩⟩ (e := e) (p := p) h1 h2
  refine hreal.as rfl (fun _ _ _ => trivial) ?_
  intro ds hb ho
  refine ⟨?_, rfl, rfl, fun _ _ => trivial⟩
  exact (nfcRun_compose C30_table_closed _ (fun d hd => classed_of ((nonEmpty_bytes hb).1 d hd))).1 _ h1 h2 ho

/-- Rules that do not concern characters. -/
def Aside (junk : Rules Datum (List Datum)) : Prop := ∀ r ∈ junk, ∀ d, r.1.head? = some d → char? d = none

/-- Every rule is about one datum. -/
def Singles (R : Rules Datum (List Datum)) : Prop := ∀ r ∈ R, r.1.length = 1

/-- What the rules say about a datum. -/
def tableOf (R : Rules Datum (List Datum)) (d : Datum) : Option (List Datum) := lookup R [d]

theorem nfd_one {R junk : Rules Datum (List Datum)} (hR : Singles R) (hj : Aside junk) {d : Datum} (hd : char? d ≠ none) : OneAt (junk ++ R) d := by
  intro r hr h
  rcases List.mem_append.1 hr with hr | hr
  · exact absurd (hj r hr d h) hd
  · have := hR r hr
    match h0 : r.1 with
    | [] => rw [h0] at this; simp at this
    | [x] => rw [h0] at h; simp at h; rw [h]
    | _ :: _ :: _ => rw [h0] at this; simp at this

theorem nfd_lookup {R junk : Rules Datum (List Datum)} (hj : Aside junk) {d : Datum} (hd : char? d ≠ none) :
    lookup (junk ++ R) [d] = tableOf R d := by
  rw [lookup_append, lookup_miss, Option.none_or, tableOf]
  intro r hr e
  exact hd (hj r hr d (by rw [e]; rfl))

theorem text_nonEmpty {ds : List Datum} (h : ∀ d ∈ ds, char? d ≠ none) : nonEmpty ds = ds := by
  rw [nonEmpty, List.filter_eq_self]
  intro d hd
  have := h d hd
  cases d with
  | nil => simp [char?] at this
  | cons a d => rfl

theorem expand_congr {t u : Datum → Option (List Datum)} {ds : List Datum} (h : ∀ d ∈ ds, t d = u d) : expand t ds = expand u ds := by
  unfold expand
  induction ds with
  | nil => rfl
  | cons d ds ih =>
    rw [List.flatMap_cons, List.flatMap_cons, h d (by simp), ih fun x hx => h x (by simp [hx])]

theorem expand_chars {t : Datum → Option (List Datum)} (hs : StdTable t) {ds : List Datum} (h : ∀ d ∈ ds, char? d ≠ none) : ∀ d ∈ expand t ds, char? d ≠ none := by
  intro d hd
  obtain ⟨x, hx, hd⟩ := List.mem_flatMap.1 hd
  cases ht : t x with
  | none => rw [ht] at hd; simp at hd; subst hd; exact h d hx
  | some v => rw [ht] at hd; exact (hs x v ht d hd).2

theorem decomposed_chars {ds : List Datum} (h : ∀ d ∈ ds, char? d ≠ none) : ∀ d ∈ decomposed ds, char? d ≠ none := by
  intro d hd
  obtain ⟨x, hx, hd⟩ := List.mem_flatMap.1 hd
  split at hd
  · rename_i hS
    obtain ⟨m, hm, rfl⟩ := List.mem_map.1 hd
    have := jamo_range (isS_chr hS) hm
    rw [char_uni (by omega)]; simp
  · simp at hd; subst hd; exact h d hx

theorem composeFrom_chars {comb : Datum → Datum → Option Datum} (hf : ∀ s c x, comb s c = some x → char? x ≠ none) :
    ∀ (ds : List Datum) (o : Option (Datum × List Datum)), (∀ d ∈ ds, char? d ≠ none) →
      (∀ s p, o = some (s, p) → char? s ≠ none ∧ ∀ d ∈ p, char? d ≠ none) → ∀ d ∈ composeFrom comb o ds, char? d ≠ none := by
  intro ds
  induction ds with
  | nil =>
    intro o _ ho d hd
    cases o with
    | none => simp [composeFrom] at hd
    | some q =>
      obtain ⟨s, p⟩ := q
      simp only [composeFrom, List.mem_cons] at hd
      rcases hd with rfl | hd
      · exact (ho _ _ rfl).1
      · exact (ho _ _ rfl).2 d hd
  | cons c ds ih =>
    intro o hds ho
    have hc := hds c (by simp)
    have hds' : ∀ d ∈ ds, char? d ≠ none := fun x hx => hds x (by simp [hx])
    have start := ih (some (c, [])) hds' (by intro s p e; simp at e; rw [← e.1]; exact ⟨hc, by simp [e.2]⟩)
    have hcc : (char? c).isSome = true := by cases h : char? c with
      | none => exact absurd h hc
      | some u => rfl
    simp only [composeFrom, hcc, if_true]
    cases o with
    | none =>
      simp only
      split
      · exact start
      · intro d hd
        rcases List.mem_cons.1 hd with rfl | hd
        · exact hc
        · exact ih none hds' (by simp) d hd
    | some q =>
      obtain ⟨s, p⟩ := q
      obtain ⟨h1, h2⟩ := ho s p rfl
      simp only
      cases hx : (if unblocked p c then comb s c else none) with
      | some x =>
        refine ih (some (x, p)) hds' ?_
        intro s' p' e
        simp at e
        rw [← e.1, ← e.2]
        refine ⟨?_, h2⟩
        split at hx
        · exact hf _ _ _ hx
        · simp at hx
      | none =>
        simp only
        split
        · intro d hd
          rcases List.mem_append.1 hd with hd | hd
          · rcases List.mem_cons.1 hd with rfl | hd
            · exact h1
            · exact h2 d hd
          · exact start d hd
        · refine ih (some (s, p ++ [c])) hds' ?_
          intro s' p' e
          simp at e
          rw [← e.1, ← e.2]
          refine ⟨h1, ?_⟩
          intro d hd
          rcases List.mem_append.1 hd with hd | hd
          · exact h2 d hd
          · simp at hd; subst hd; exact hc

/-- The first three phases. -/
def nfdGroup (R junk : Rules Datum (List Datum)) (e : Lens π (List (Int × Datum))) : List (Proc π) := [
  { out := fun ds => expand (fun d => lookup (junk ++ R) [d]) (nonEmpty ds), ok := fun ds => ∀ d ∈ nonEmpty ds, OneAt (junk ++ R) d },
  { out := fun ds => decomposed (nonEmpty ds), ok := fun ds => ∀ d ∈ nonEmpty ds, char? d ≠ none },
  { out := fun ds => reorder combining (nonEmpty ds), fin := fun _ q => e.get (q 0) = [] }]

theorem nfdGroup_run {R junk : Rules Datum (List Datum)} (hR : Singles R) (hs : StdTable (tableOf R)) (hj : Aside junk) (e : Lens π (List (Int × Datum))) {ds : List Datum}
    (h : ∀ d ∈ ds, char? d ≠ none) (L : List (Proc π)) :
    (OkRest (nfdGroup R junk e ++ L) ds ↔ OkRest L (nfd (tableOf R) ds)) ∧ runProcs (nfdGroup R junk e ++ L) ds = runProcs L (nfd (tableOf R) ds) ∧
      runIn (nfdGroup R junk e ++ L) ds = runIn L (nfd (tableOf R) ds) ∧ runOut (nfdGroup R junk e ++ L) ds = runOut L (nfd (tableOf R) ds) := by
  have e0 := text_nonEmpty h
  have e1 : expand (fun d => lookup (junk ++ R) [d]) ds = expand (tableOf R) ds := expand_congr fun d hd => nfd_lookup hj (h d hd)
  have c1 := expand_chars hs h
  have e2 := text_nonEmpty c1
  have c2 := decomposed_chars c1
  have e3 := text_nonEmpty c2
  have ok1 : ∀ d ∈ ds, OneAt (junk ++ R) d := fun d hd => nfd_one hR hj (h d hd)
  refine ⟨?_, ?_, ?_, ?_⟩
  · simp only [nfdGroup, List.cons_append, List.nil_append, OkRest, e0, e1, e2, e3, nfd, true_and]
    exact ⟨fun k => k.2.2, fun k => ⟨ok1, c1, k⟩⟩
  · simp only [nfdGroup, List.cons_append, List.nil_append, runProcs, e0, e1, e2, e3, nfd]
  · simp only [nfdGroup, List.cons_append, List.nil_append, runIn, e0, e1, e2, e3, nfd, Nat.zero_add]
  · simp only [nfdGroup, List.cons_append, List.nil_append, runOut, e0, e1, e2, e3, nfd, Nat.zero_add]

/-- A table of decompositions, `_NF-HANGUL-DECOMPOSITION` and `_NF-ORDER`, anywhere in a conversion. -/
theorem formD_does {R : Rules Datum (List Datum)} (hR : Singles R) (hs : StdTable (tableOf R)) {s1 s2 s3 : Static π} (h : PlacedN st ip ins pre [s1, s2, s3] post) {junk : Rules Datum (List Datum)} (hj : Aside junk)
    (hs1 : PhaseTables s1 (.rewrite [junk ++ R])) {e2 : Lens π Unit} (hs2 : Only s2 .inter (plain e2 hangulDecompose))
    {e3 : Lens π (List (Int × Datum))} (hs3 : Only s3 .inter (flushing e3 order)) (hi3 : ∀ x, ip (pre.length + 3) 0 x = x)
    (hq : e3.get ((ins.ph (pre.length + 3)).priv 0) = []) :
    Does st ip ins pre (fun ds => ∀ d ∈ ds, char? d ≠ none) (nfd (tableOf R)) post := by
  have hlen : pre.length + 3 ≤ ins.phasen := by have := h.phasen; simp at this; omega
  refine ⟨nfdGroup R junk e3, placedN_converts h rfl (by simp) ?_ (by simp [nfdGroup]), ?_⟩
  · intro k h1 h2
    match k, h1, h2 with
    | 0, _, _ => exact map_real hs1 _
    | 1, _, _ => exact decompose_real hs2 _
    | 2, _, _ => exact order_real hs3 ((initPriv_get hlen (by omega) e3 id (fun x => by rw [hi3]; rfl)).trans hq)
  · intro ds hd
    have := nfdGroup_run hR hs hj e3 hd []
    simp only [List.append_nil] at this
    exact ⟨this.1.2 trivial, this.2.1, this.2.2.1, this.2.2.2⟩

/-- The five phases of NFC. -/
def formCGroup (R junk : Rules Datum (List Datum)) (e : Lens π (List (Int × Datum))) : List (Proc π) :=
  nfdGroup R junk e ++ [{ out := fun ds => compose nfcTable (nonEmpty ds), ok := fun ds => InOrder (nonEmpty ds) }, { out := fun ds => composed (nonEmpty ds) }]

theorem formC_all {R : Rules Datum (List Datum)} (hR : Singles R) (hT : Tables (tableOf R) nfcTable) {junk : Rules Datum (List Datum)} (hj : Aside junk)
    (e3 : Lens π (List (Int × Datum))) {ds : List Datum} (hd : IsText ds) :
    OkRest (formCGroup R junk e3) ds ∧ runProcs (formCGroup R junk e3) ds = nfc (tableOf R) nfcTable ds ∧ runIn (formCGroup R junk e3) ds = 0 ∧
      runOut (formCGroup R junk e3) ds = 0 := by
  have hc : ∀ d ∈ ds, char? d ≠ none := fun d h => (hd d h).2
  obtain ⟨g1, g2, g3, g4⟩ := nfdGroup_run hR hT.std hj e3 hc [{ out := fun ds => compose nfcTable (nonEmpty ds), ok := fun ds => InOrder (nonEmpty ds) },
    { out := fun ds => composed (nonEmpty ds) }]
  have hn := nfd_std hT.std hd
  have e0 := text_nonEmpty fun d h => (hn d h).2
  have ho : InOrder (nfd (tableOf R) ds) := C30_inOrder _
  have hpl : ∀ d ∈ nfd (tableOf R) ds, Plain d := fun d h =>
    ⟨(hn d h).2, (nfd_atoms hT.expanded hT.jamoFree ds d h).2, fun _ => (hn d h).1⟩
  have e1 : nonEmpty (compose nfcTable (nfd (tableOf R) ds)) = compose nfcTable (nfd (tableOf R) ds) :=
    text_nonEmpty (composeFrom_chars (fun s c x hx k => by
      have := (C30_table_starters s c x hx).2.1
      rw [k] at this; simp at this) _ none (fun d h => (hn d h).2) (by simp))
  refine ⟨g1.2 ⟨rfl, by show InOrder (nonEmpty _); rw [e0]; exact ho, rfl, trivial, trivial⟩, ?_, g3.trans rfl, g4.trans rfl⟩
  rw [formCGroup, g2]
  simp only [runProcs, e0, e1]
  exact (composed_two hT.hangulFree _ hpl).1

/-- The same with `_NFC` and `_NF-HANGUL-COMPOSITION` after it. -/
theorem formC_does {R : Rules Datum (List Datum)} (hR : Singles R) (hT : Tables (tableOf R) nfcTable) {s1 s2 s3 s4 s5 : Static π} (h : PlacedN st ip ins pre [s1, s2, s3, s4, s5] post) {junk : Rules Datum (List Datum)} (hj : Aside junk)
    (hs1 : PhaseTables s1 (.rewrite [junk ++ R])) {e2 : Lens π Unit} (hs2 : Only s2 .inter (plain e2 hangulDecompose))
    {e3 : Lens π (List (Int × Datum))} (hs3 : Only s3 .inter (flushing e3 order)) (hi3 : ∀ x, ip (pre.length + 3) 0 x = x)
    (hq : e3.get ((ins.ph (pre.length + 3)).priv 0) = [])
    {e4 : Lens π Nfc} (hs4 : Only s4 .inter (nfcCodec e4 nfcTable)) (hi4 : ∀ x, e4.get (ip (pre.length + 4) 0 x) = (e4.get x).init)
    {e5 : Lens π Hangul} (hs5 : Only s5 .inter (flushing e5 hangulCompose))
    (hi5 : ∀ x, e5.get (ip (pre.length + 5) 0 x) = { (e5.get x) with status := 0 }) :
    Does st ip ins pre IsText (nfc (tableOf R) nfcTable) post := by
  have hlen : pre.length + 5 ≤ ins.phasen := by have := h.phasen; simp at this; omega
  refine ⟨formCGroup R junk e3, placedN_converts h rfl (by simp) ?_ (by simp [formCGroup, nfdGroup]), ?_⟩
  · intro k h1 h2
    match k, h1, h2 with
    | 0, _, _ => exact map_real hs1 _
    | 1, _, _ => exact decompose_real hs2 _
    | 2, _, _ => exact order_real hs3 ((initPriv_get (by omega) (by omega) e3 id (fun x => by rw [hi3]; rfl)).trans hq)
    | 3, _, _ =>
      have hp := initPriv_get (st := st) (ins := ins) (k := pre.length + 4) (by omega) (by omega) e4 Nfc.init hi4
      exact nfc_real hs4 (by rw [hp]; rfl) (by rw [hp]; rfl)
    | 4, _, _ =>
      have hp := initPriv_get (st := st) (ins := ins) (k := pre.length + 5) (by omega) (by omega) e5 (fun x => { x with status := 0 }) hi5
      exact compose_real hs5 (by rw [hp])
  · intro ds hd
    exact formC_all hR hT hj e3 hd

theorem nfd_singles : Singles nfdRules := by
  intro r hr
  obtain ⟨q, _, rfl⟩ := List.mem_map.1 hr
  rfl

/-- C67.  The conversion NFD (`_NFD:_NF-HANGUL-DECOMPOSITION:_NF-ORDER`, /repo/modules/inter/alias), anywhere in a conversion, whatever
the chunking and the output modes: the normalisation form D of the Unicode standard with the decompositions of
/repo/modules/inter/_NFD.txt, for every sequence of characters.  The file has a first line `Source: ...` that is not a comment and becomes a
rule for data starting with a byte 0 (`junk`), which characters do not. -/
theorem C67_nfd {s1 s2 s3 : Static π} (h : PlacedN st ip ins pre [s1, s2, s3] post) {junk : Rules Datum (List Datum)} (hj : Aside junk)
    (hs1 : PhaseTables s1 (.rewrite [junk ++ nfdRules])) {e2 : Lens π Unit} (hs2 : Only s2 .inter (plain e2 hangulDecompose))
    {e3 : Lens π (List (Int × Datum))} (hs3 : Only s3 .inter (flushing e3 order)) (hi3 : ∀ x, ip (pre.length + 3) 0 x = x)
    (hq : e3.get ((ins.ph (pre.length + 3)).priv 0) = []) :
    Does st ip ins pre (fun ds => ∀ d ∈ ds, char? d ≠ none) (nfd nfdTable) post :=
  formD_does nfd_singles C67_tables.std h hj hs1 hs2 hs3 hi3 hq

/-- C67.  The conversion NFC (`NFD:_NFC:_NF-HANGUL-COMPOSITION`), anywhere in a conversion, whatever the chunking and the output modes:
the normalisation form C of the Unicode standard with the tables /repo/modules/inter/_NFD.txt and /repo/modules/inter/_NFC-MAP.txt, for every
sequence of characters written in the standard way. -/
theorem C67_nfc {s1 s2 s3 s4 s5 : Static π} (h : PlacedN st ip ins pre [s1, s2, s3, s4, s5] post) {junk : Rules Datum (List Datum)} (hj : Aside junk)
    (hs1 : PhaseTables s1 (.rewrite [junk ++ nfdRules])) {e2 : Lens π Unit} (hs2 : Only s2 .inter (plain e2 hangulDecompose))
    {e3 : Lens π (List (Int × Datum))} (hs3 : Only s3 .inter (flushing e3 order)) (hi3 : ∀ x, ip (pre.length + 3) 0 x = x)
    (hq : e3.get ((ins.ph (pre.length + 3)).priv 0) = [])
    {e4 : Lens π Nfc} (hs4 : Only s4 .inter (nfcCodec e4 nfcTable)) (hi4 : ∀ x, e4.get (ip (pre.length + 4) 0 x) = (e4.get x).init)
    {e5 : Lens π Hangul} (hs5 : Only s5 .inter (flushing e5 hangulCompose))
    (hi5 : ∀ x, e5.get (ip (pre.length + 5) 0 x) = { (e5.get x) with status := 0 }) :
    Does st ip ins pre IsText (nfc nfdTable nfcTable) post :=
  formC_does nfd_singles C67_tables h hj hs1 hs2 hs3 hi3 hq hs4 hi4 hs5 hi5

/-! ### The hypotheses can be met -/

/-- The private data of the five phases. -/
structure NfcPriv where
  queue : List (Int × Datum) := []
  nfc : Nfc := {}
  hangul : Hangul := ⟨0, 0⟩

def lens2 : Lens NfcPriv Unit := ⟨fun _ => (), fun _ x => x, fun _ _ => rfl, fun _ => rfl⟩
def lens3 : Lens NfcPriv (List (Int × Datum)) := ⟨NfcPriv.queue, fun t x => { x with queue := t }, fun _ _ => rfl, fun _ => rfl⟩
def lens4 : Lens NfcPriv Nfc := ⟨NfcPriv.nfc, fun t x => { x with nfc := t }, fun _ _ => rfl, fun _ => rfl⟩
def lens5 : Lens NfcPriv Hangul := ⟨NfcPriv.hangul, fun t x => { x with hangul := t }, fun _ _ => rfl, fun _ => rfl⟩

/-- The phases of NFC. -/
def nfcPhases (k : Nat) : Static NfcPriv :=
  match k with
  | 1 => ⟨.inter, fun _ => trieCodec (symbolRules nfdRules), 0⟩
  | 2 => onePhase .inter (plain lens2 hangulDecompose)
  | 3 => onePhase .inter (flushing lens3 order)
  | 4 => onePhase .inter (nfcCodec lens4 nfcTable)
  | _ => onePhase .inter (flushing lens5 hangulCompose)

/-- Their `cbinit`. -/
def nfcInits (k _ : Nat) (x : NfcPriv) : NfcPriv :=
  if k = 4 then { x with nfc := x.nfc.init } else if k = 5 then { x with hangul := { x.hangul with status := 0 } } else x

theorem nfd_values : (Nfd.rules.all fun r => !r.2.isEmpty) = true := by decide +kernel

theorem nfdRules_good : ∀ R ∈ [nfdRules], ∀ r ∈ R, r.1 ≠ [] ∧ (∀ d ∈ r.1, d ≠ [] ∧ IsBytes d) ∧ GoodData r.2 := by
  intro R hR r hr
  simp only [List.mem_cons, List.not_mem_nil, or_false] at hR
  subst hR
  obtain ⟨q, hq, rfl⟩ := List.mem_map.1 hr
  have h1 := List.all_eq_true.1 nfd_values q hq
  have ne : ∀ n, uniDatum n ≠ [] := by intro n; simp [uniDatum]
  refine ⟨by simp, ?_, ?_, ?_⟩
  · intro d hd; simp at hd; subst hd; exact ⟨ne _, uniDatum_bytes _⟩
  · cases h : q.2 with
    | nil => rw [h] at h1; simp at h1
    | cons a l => simp
  · intro d hd
    obtain ⟨m, _, rfl⟩ := List.mem_map.1 hd
    exact ⟨ne _, uniDatum_bytes _⟩

/-- The instance of the five phases meets the hypotheses of `C67_nfc`; U+1E69 in two pieces spelt ṩ with the marks in the wrong order, and a
syllable spelt in jamo. -/
example : Does nfcPhases nfcInits { ph := fun _ => { priv := fun _ => {} }, phasen := 5 } [] IsText (nfc nfdTable nfcTable) [] ∧
    nfc nfdTable nfcTable [[1, 0x1E, 0x61], [1, 3, 0x23], [1, 0x11, 0x12], [1, 0x11, 0x61], [1, 0x11, 0xAB]] = [[1, 0x1E, 0x69], [1, 0xD5, 0x5C]] := by
  refine ⟨C67_nfc (pre := []) (post := []) (s1 := nfcPhases 1) (s2 := nfcPhases 2) (s3 := nfcPhases 3) (s4 := nfcPhases 4) (s5 := nfcPhases 5)
    (junk := []) ?_ (by intro r hr; simp at hr) ?_ (e2 := lens2) (only_one _ _) (e3 := lens3) (only_one _ _) (by intro x; rfl) rfl
    (e4 := lens4) (only_one _ _) (by intro x; rfl) (e5 := lens5) (only_one _ _) (by intro x; rfl), by decide +kernel⟩
  · refine ⟨by intro k h; simp at h, ?_, by intro k h; simp at h, by intro k h; simp at h, by intro k h; simp at h, rfl⟩
    intro k h
    match k, h with
    | 0, _ => rfl
    | 1, _ => rfl
    | 2, _ => rfl
    | 3, _ => rfl
    | 4, _ => rfl
  · refine ⟨rfl, rfl, ?_, nfdRules_good⟩
    intro j hj
    simp at hj
    subst hj
    refine represents_trie _ ?_
    intro r hr
    obtain ⟨r0, h0, rfl⟩ := List.mem_map.1 hr
    have := nfdRules_good nfdRules (by simp) r0 h0
    exact symbols_ne this.1 fun d hd => (this.2.1 d hd).1

end Verif.Props
