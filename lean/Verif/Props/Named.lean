import Verif.Spec.Named
import Verif.Proofs.CiTable
import Verif.Props.Lex
import Verif.Props.MkTable

/-! C96: named HTML entities.  First, general: rule files whose lines are marked `!` (C52, several lines). -/

namespace Verif.Props
open Verif.Spec
open Verif.Engine hiding Datum step
open Verif.Spec.Table (covers begins best better exactly symbolFits datums expanded NoClash)
open Verif.MkTable (Rule compiled ciTable mem_expanded lookup_expanded best_isSome begins_expanded)
open Verif.Named
open Verif.Spec.Named
open Verif.Solve (lit)

variable {π : Type}

/-- C52, whole files.  A file of plain rules, with ranges and `!`, is read back as exactly the rules for single strings it stands for: for every string the data of the
rule that fits it most exactly. -/
theorem C52_represents (rs : List Rule) (hp : ∀ r ∈ rs, Spec.Table.Plain r) (hcl : NoClash rs) (hb : ∀ r ∈ rs, ∀ b ∈ r.pat, b.1 ≤ b.2) (hcb : ∀ r ∈ rs, r.cb = false)
    (hd : ∀ r ∈ rs, (datums r.dat).length ≤ 1024) (hsz : imageSize rs < 2 ^ 32) :
    Represents (compiled π rs) (expanded rs) ∧ ∀ q, lookup (expanded rs) q = (best rs q).map fun r => datums r.dat :=
  ⟨MkTable.represents_expanded rs hp hcl hb hcb hd hsz, lookup_expanded hp⟩

/-- Among plain rules the one in charge fits no less exactly than any other. -/
theorem best_most {rs : List Rule} (hcb : ∀ r ∈ rs, r.cb = false) {q : List Nat} {x : Rule} (h : best rs q = some x) :
    ∀ r ∈ rs, covers r q = true → exactly r.pat q ≤ exactly x.pat q := by
  have go : ∀ (l : List Rule) (o : Option Rule), (∀ r ∈ l, r.cb = false) → (∀ y, o = some y → y.cb = false) → l.foldl (better q) o = some x →
      (∀ y, o = some y → exactly y.pat q ≤ exactly x.pat q) ∧ ∀ r ∈ l, covers r q = true → exactly r.pat q ≤ exactly x.pat q := by
    intro l
    induction l with
    | nil =>
      intro o _ _ e
      simp only [List.foldl_nil] at e
      subst e
      exact ⟨fun y e => (by cases e; exact Nat.le_refl _), by simp⟩
    | cons r l ih =>
      intro o hl ho e
      rw [List.foldl_cons] at e
      have hr := hl r (by simp)
      have hbet : ∀ y, better q o r = some y → y.cb = false := by
        intro y k
        cases o with
        | none =>
          simp only [better] at k
          split at k
          · cases k; exact hr
          · cases k
        | some z =>
          simp only [better] at k
          split at k
          · cases k; exact hr
          · cases k; exact ho _ rfl
      obtain ⟨i1, i2⟩ := ih _ (fun y hy => hl y (by simp [hy])) hbet e
      have two : (∀ y, o = some y → exactly y.pat q ≤ exactly x.pat q) ∧ (covers r q = true → exactly r.pat q ≤ exactly x.pat q) := by
        cases o with
        | none =>
          refine ⟨fun y k => (by cases k), fun k => i1 r ?_⟩
          simp [better, k]
        | some z =>
          have hz := ho z rfl
          by_cases k : covers r q = true ∧ (exactly z.pat q < exactly r.pat q ∨ z.cb = true ∧ r.cb = false)
          · have e1 := i1 r (by simp only [better, if_pos k])
            refine ⟨fun y e => ?_, fun _ => e1⟩
            cases e
            rcases k.2 with k2 | k2
            · omega
            · rw [hz] at k2; cases k2.1
          · have e1 := i1 z (by simp only [better, if_neg k])
            refine ⟨fun y e => (by cases e; exact e1), fun c => ?_⟩
            have : ¬ exactly z.pat q < exactly r.pat q := fun h => k ⟨c, .inl h⟩
            omega
      refine ⟨two.1, ?_⟩
      intro y hy hc
      rcases List.mem_cons.1 hy with rfl | hy
      · exact two.2 hc
      · exact i2 y hy hc
  exact (go rs none hcb (by simp) h).2

/-! ### references -/

/-- Letters and digits. -/
def alnum (c : Nat) : Bool := decide (48 ≤ c ∧ c ≤ 57) || decide (65 ≤ c ∧ c ≤ 90) || decide (97 ≤ c ∧ c ≤ 122)

theorem alnum_iff {c : Nat} : alnum c = true ↔ (48 ≤ c ∧ c ≤ 57) ∨ (65 ≤ c ∧ c ≤ 90) ∨ (97 ≤ c ∧ c ≤ 122) := by
  simp [alnum, or_assoc]

theorem fits_one {c d : Nat} : symbolFits true (c, c) d = true ↔ d = c ∨ (ciTable d ≠ 0 ∧ ciTable d = c) := by
  have e : (symbolFits true (c, c) d = true) ↔ ((c ≤ d ∧ d ≤ c) ∨ (ciTable d ≠ 0 ∧ c ≤ ciTable d ∧ ciTable d ≤ c)) := by
    simp [symbolFits]
  rw [e]; omega

/-- A letter or digit in a pattern fits itself, and if it is a small letter its capital. -/
theorem fits_alnum {c d : Nat} (hc : alnum c = true) : symbolFits true (c, c) d = true ↔ d = c ∨ (97 ≤ c ∧ d + 32 = c) := by
  rw [alnum_iff] at hc
  rw [fits_one]
  unfold ciTable
  split
  · omega
  · split <;> omega

theorem fits_low {c d : Nat} (hc : c < 0x5B) : symbolFits true (c, c) d = true ↔ d = c := by
  rw [fits_one]
  unfold ciTable
  split
  · omega
  · split <;> omega

/-- The names a line is for. -/
theorem name_fits : ∀ {n q : List Nat}, (∀ c ∈ n, alnum c = true) → (Table.within true ((n ++ [59]).map fun c => (c, c)) q = true ↔
    ∃ m, q = m ++ [59] ∧ Table.within true (n.map fun c => (c, c)) m = true)
  | [], q, _ => by
    cases q with
    | nil => simp [Table.within]
    | cons d q =>
      cases q with
      | nil =>
        simp only [List.nil_append, List.map_cons, List.map_nil, Table.within, Bool.and_true, fits_low (show (59 : Nat) < 0x5B by decide)]
        constructor
        · rintro rfl
          exact ⟨[], rfl, rfl⟩
        · rintro ⟨m, e, k⟩
          cases m with
          | nil => simpa using e
          | cons _ _ => simp [Table.within] at k
      | cons d' q =>
        simp only [List.nil_append, List.map_cons, List.map_nil, Table.within, Bool.and_false, Bool.false_eq_true, false_iff]
        rintro ⟨m, e, k⟩
        cases m with
        | nil => simp at e
        | cons _ _ => simp [Table.within] at k
  | c :: n, [], _ => by
    simp only [List.cons_append, List.map_cons, Table.within, Bool.false_eq_true, false_iff]
    rintro ⟨m, e, _⟩
    simp at e
  | c :: n, d :: q, h => by
    have ih := name_fits (n := n) (q := q) (fun x hx => h x (by simp [hx]))
    simp only [List.cons_append, List.map_cons, Table.within, Bool.and_eq_true, ih]
    constructor
    · rintro ⟨k, m, rfl, k2⟩
      exact ⟨d :: m, rfl, by simp [Table.within, k, k2]⟩
    · rintro ⟨m, e, k⟩
      cases m with
      | nil => simp [Table.within] at k
      | cons d' m =>
        simp only [List.cons_append, List.cons.injEq] at e
        obtain ⟨rfl, rfl⟩ := e
        simp only [Table.within, Bool.and_eq_true] at k
        exact ⟨k.1, m, rfl, k.2⟩

theorem ref_covers {n d q : List Nat} (h : ∀ c ∈ n, alnum c = true) : covers (refLine n d) q = true ↔
    ∃ m, q = reference m ∧ Table.within true (n.map fun c => (c, c)) m = true := by
  simp only [covers, refLine, reference, List.cons_append, List.map_cons]
  cases q with
  | nil => simp [Table.within]
  | cons b q =>
    simp only [Table.within, Bool.and_eq_true, name_fits h, fits_low (show (38 : Nat) < 0x5B by decide), List.cons.injEq]
    constructor
    · rintro ⟨rfl, m, rfl, k⟩
      exact ⟨m, ⟨rfl, rfl⟩, k⟩
    · rintro ⟨m, ⟨rfl, rfl⟩, k⟩
      exact ⟨rfl, m, rfl, k⟩

/-- What fits a name has its letters. -/
theorem fits_letters : ∀ {n m : List Nat}, (∀ c ∈ n, alnum c = true) → Table.within true (n.map fun c => (c, c)) m = true → m.map small = n.map small ∧ ∀ c ∈ m, alnum c = true
  | [], [], _, _ => by simp
  | [], _ :: _, _, h => by simp [Table.within] at h
  | _ :: _, [], _, h => by simp [Table.within] at h
  | c :: n, d :: m, h, k => by
    simp only [List.map_cons, Table.within, Bool.and_eq_true] at k
    obtain ⟨i1, i2⟩ := fits_letters (fun x hx => h x (by simp [hx])) k.2
    have hc := h c (by simp)
    have k1 := (fits_alnum hc).1 k.1
    rw [alnum_iff] at hc
    refine ⟨?_, ?_⟩
    · simp only [List.map_cons, i1, List.cons.injEq, and_true]
      unfold small
      split <;> split <;> omega
    · intro x hx
      rcases List.mem_cons.1 hx with rfl | hx
      · rw [alnum_iff]; omega
      · exact i2 x hx

/-- A name in small letters fits all its spellings. -/
theorem small_fits : ∀ {n m : List Nat}, (∀ c ∈ n, alnum c = true) → m.map small = n → Table.within true (n.map fun c => (c, c)) m = true
  | [], [], _, _ => rfl
  | [], _ :: _, _, h => by simp at h
  | _ :: _, [], _, h => by simp at h
  | c :: n, d :: m, h, k => by
    simp only [List.map_cons, List.cons.injEq] at k
    simp only [List.map_cons, Table.within, Bool.and_eq_true]
    refine ⟨(fits_alnum (h c (by simp))).2 ?_, small_fits (fun x hx => h x (by simp [hx])) k.2⟩
    have := k.1
    unfold small at this
    split at this <;> omega

theorem self_fits : ∀ (n : List Nat), Table.within true (n.map fun c => (c, c)) n = true
  | [] => rfl
  | c :: n => by simp [Table.within, self_fits n, symbolFits]

/-- No line is for a longer string than a reference and begins with it. -/
theorem ref_ends {n d m : List Nat} (h : ∀ c ∈ n, alnum c = true) : begins (refLine n d) (reference m) = false := by
  have key : ∀ (m n : List Nat), (∀ c ∈ n, alnum c = true) → m.length < n.length → Table.within true (((n ++ [59]).map fun c => (c, c)).take (m.length + 1)) (m ++ [59]) = false := by
    intro m
    induction m with
    | nil =>
      intro n hn hl
      cases n with
      | nil => simp at hl
      | cons c n =>
        have hc := hn c (by simp)
        simp only [List.cons_append, List.map_cons, List.length_nil, List.take_succ_cons, List.take_zero, List.nil_append, Table.within, Bool.and_true]
        rw [Bool.eq_false_iff]
        intro k
        have := (fits_alnum hc).1 k
        rw [alnum_iff] at hc
        omega
    | cons a m ih =>
      intro n hn hl
      cases n with
      | nil => simp at hl
      | cons c n =>
        simp only [List.cons_append, List.map_cons, List.length_cons, List.take_succ_cons, Table.within]
        rw [ih n (fun x hx => hn x (by simp [hx])) (by simpa using hl), Bool.and_false]
  rw [begins, Bool.and_eq_false_iff]
  by_cases hl : m.length < n.length
  · right
    have := key m n h hl
    simp only [refLine, reference, List.cons_append, List.map_cons, List.length_cons, List.length_append, List.length_nil, List.take_succ_cons, Table.within] at this ⊢
    rw [this, Bool.and_false]
  · left
    simp only [refLine, reference, List.length_map, List.cons_append, List.length_cons, List.length_append, List.length_nil]
    simp; omega

/-! ### the files -/

theorem pairwise_all {α : Type} {R : α → α → Prop} : ∀ {l : List α}, (∀ a ∈ l, ∀ b ∈ l, R a b) → l.Pairwise R
  | [], _ => List.Pairwise.nil
  | a :: l, h => List.Pairwise.cons (fun b hb => h a (by simp) b (by simp [hb])) (pairwise_all fun x hx y hy => h x (by simp [hx]) y (by simp [hy]))

theorem entities_ok : (entities.all fun e => (lit e.1).all alnum && decide (e.2 < 0xD800) && decide (1 ≤ e.2)) = true := by decide +kernel

theorem entity_ok {e : String × Nat} (he : e ∈ entities) : (∀ c ∈ lit e.1, alnum c = true) ∧ Scalar e.2 ∧ 1 ≤ e.2 := by
  have := List.all_eq_true.1 entities_ok e he
  simp only [Bool.and_eq_true, decide_eq_true_eq, List.all_eq_true] at this
  exact ⟨this.1.1, by unfold Scalar Surrogate; omega, this.2⟩

/-- A name as a number. -/
def pack (n : List Nat) : Nat := n.foldl (fun a c => a * 256 + c) 0

theorem names_distinct : distinct (entities.map fun e => pack (lit e.1)) = true := by
  have h : (entities.map fun e => pack (lit e.1)) = nameNumbers := by decide +kernel
  rw [h]
  decide +kernel

theorem chars_distinct : distinct (entities.map Prod.snd) = true := by decide +kernel

/-- No two rows have the same name, or the same character. -/
theorem name_inj {e e' : String × Nat} (he : e ∈ entities) (he' : e' ∈ entities) (h : lit e'.1 = lit e.1 ∨ e'.2 = e.2) : e' = e := by
  rcases h with h | h
  · exact distinct_inj _ names_distinct e he e' he' (congrArg pack h)
  · exact distinct_inj _ chars_distinct e he e' he' h

theorem from_mem {r : Rule} (h : r ∈ fromLines) : ∃ e ∈ entities, r = refLine (lit e.1) (uniDatum e.2) := by
  obtain ⟨e, he, rfl⟩ := List.mem_map.1 h
  exact ⟨e, he, rfl⟩

theorem entity_mem {e : String × Nat} (h : e ∈ entities) : refLine (lit e.1) (uniDatum e.2) ∈ fromLines := List.mem_map.2 ⟨e, h, rfl⟩

theorem line_symbols {n : List Nat} (h : ∀ c ∈ n, alnum c = true) {b : Nat × Nat} (hb : b ∈ (reference n).map fun c => (c, c)) : b.1 = b.2 ∧ b.2 ≤ 256 := by
  obtain ⟨c, hc, rfl⟩ := List.mem_map.1 hb
  refine ⟨rfl, ?_⟩
  simp only [reference, List.cons_append, List.mem_cons, List.mem_append, List.not_mem_nil, or_false] at hc
  rcases hc with rfl | hc | rfl
  · decide
  · have := alnum_iff.1 (h c hc)
    simp only
    omega
  · decide

theorem from_plain : ∀ r ∈ fromLines, Spec.Table.Plain r := by
  intro r hr
  obtain ⟨e, he, rfl⟩ := from_mem hr
  exact ⟨by simp [refLine, reference], fun b hb => (line_symbols (entity_ok he).1 hb).2⟩

theorem from_sorted : ∀ r ∈ fromLines, ∀ b ∈ r.pat, b.1 ≤ b.2 := by
  intro r hr b hb
  obtain ⟨e, he, rfl⟩ := from_mem hr
  exact Nat.le_of_eq (line_symbols (entity_ok he).1 hb).1

theorem from_cb : ∀ r ∈ fromLines, r.cb = false := by
  intro r hr
  obtain ⟨e, he, rfl⟩ := from_mem hr
  rfl

theorem from_ends {r : Rule} (hr : r ∈ fromLines) {q : List Nat} (hc : covers r q = true) : ∀ x ∈ fromLines, begins x q = false := by
  obtain ⟨e, he, rfl⟩ := from_mem hr
  obtain ⟨m, rfl, _⟩ := (ref_covers (entity_ok he).1).1 hc
  intro x hx
  obtain ⟨e', he', rfl⟩ := from_mem hx
  exact ref_ends (entity_ok he').1

theorem from_clash : NoClash fromLines :=
  pairwise_all fun _ hr r' hr' _ h1 _ => .inr ⟨from_cb r' hr', from_ends hr h1⟩

theorem datum_entity {e : String × Nat} (he : e ∈ entities) : datums (uniDatum e.2) = [uniDatum e.2] := by
  have hs := (entity_ok he).2.1
  have := MkTable.datums_symbols [uniDatum e.2] (by
    intro d hd
    simp only [List.mem_singleton] at hd
    subst hd
    exact ⟨by simp [uniDatum], uniDatum_bytes _⟩)
  exact this

theorem width_two (c : Nat) (h : c < 123) : MkTable.width true (c, c) ≤ 2 := by
  have : ((List.range 123).all fun c => decide (MkTable.width true (c, c) ≤ 2)) = true := by decide +kernel
  have := List.all_eq_true.1 this c (List.mem_range.2 h)
  simpa using this

theorem nodes_two : ∀ (n : List Nat), (∀ c ∈ n, c < 123) → MkTable.ruleNodes true (n.map fun c => (c, c)) + 2 ≤ 2 ^ (n.length + 1)
  | [], _ => by simp [MkTable.ruleNodes]
  | c :: n, h => by
    have ih := nodes_two n fun x hx => h x (by simp [hx])
    have hw := width_two c (h c (by simp))
    simp only [List.map_cons, MkTable.ruleNodes, List.length_cons, Nat.pow_succ] at ih ⊢
    have := Nat.mul_le_mul_right (1 + MkTable.ruleNodes true (n.map fun c => (c, c))) hw
    omega

theorem sum_le (l : List Nat) (k : Nat) (h : ∀ x ∈ l, x ≤ k) : l.sum ≤ l.length * k := by
  induction l with
  | nil => simp
  | cons a l ih =>
    have := ih fun x hx => h x (by simp [hx])
    have := h a (by simp)
    simp only [List.sum_cons, List.length_cons, Nat.succ_mul]
    omega

theorem name_length {e : String × Nat} (he : e ∈ entities) : (lit e.1).length ≤ 8 := by
  have hl : (entities.all fun e => decide ((lit e.1).length ≤ 8)) = true := by decide +kernel
  exact of_decide_eq_true (List.all_eq_true.1 hl e he)

theorem line_nodes {n d : List Nat} (h : ∀ c ∈ n, alnum c = true) (hl : n.length ≤ 8) : MkTable.ruleNodes (refLine n d).ci (refLine n d).pat ≤ 2046 := by
  have h2 := nodes_two (reference n) (by
    intro c hc
    simp only [reference, List.cons_append, List.mem_cons, List.mem_append, List.not_mem_nil, or_false] at hc
    rcases hc with rfl | hc | rfl
    · decide
    · have := alnum_iff.1 (h c hc)
      omega
    · decide)
  have h3 : (reference n).length + 1 ≤ 11 := by simp [reference]; omega
  have h4 := Nat.pow_le_pow_right (show 0 < 2 by decide) h3
  simp only [refLine]
  omega

theorem lines_nodes : ∀ x ∈ fromLines.map (fun r => MkTable.ruleNodes r.ci r.pat), x ≤ 2046 := by
  intro x hx
  obtain ⟨r, hr, rfl⟩ := List.mem_map.1 hx
  obtain ⟨e, he, rfl⟩ := from_mem hr
  exact line_nodes (entity_ok he).1 (name_length he)

theorem from_length : fromLines.length = 241 := by
  rw [fromLines, List.length_map]
  decide +kernel

theorem nodes_le (rs : List Rule) (k : Nat) (h : ∀ x ∈ rs.map (fun r => MkTable.ruleNodes r.ci r.pat), x ≤ k) : MkTable.fileNodes rs ≤ 1 + rs.length * k := by
  have := sum_le _ k h
  rw [List.length_map] at this
  exact Nat.add_le_add_left this 1

theorem from_nodes : MkTable.fileNodes fromLines ≤ 500000 := by
  have := nodes_le fromLines 2046 lines_nodes
  rw [from_length] at this
  exact Nat.le_trans this (by decide)

theorem size_le (rs : List Rule) (D n : Nat) (hd : ∀ r ∈ rs, r.dat.length ≤ D) (hn : MkTable.fileNodes rs ≤ n) (h : n * (1044 + 12 * D + D * D) < 2 ^ 32) :
    imageSize rs < 2 ^ 32 :=
  Nat.lt_of_le_of_lt (Nat.le_trans (MkTable.image_size rs D hd) (Nat.mul_le_mul_right _ hn)) h

theorem from_size : imageSize fromLines < 2 ^ 32 :=
  size_le fromLines 4 500000 (by
    intro r hr
    obtain ⟨e, he, rfl⟩ := from_mem hr
    exact scalar_length (entity_ok he).2.1) from_nodes (by decide)

/-- C96, the shipped file.  Its compiled image is the table of the strings with a rule. -/
theorem C96_image : Represents (compiled π fromLines) (expanded fromLines) :=
  (C52_represents fromLines from_plain from_clash from_sorted from_cb (by
    intro r hr
    obtain ⟨e, he, rfl⟩ := from_mem hr
    simp only [refLine]
    rw [datum_entity he]
    simp) from_size).1

theorem from_prefixFree : PrefixFree (expanded fromLines) := by
  intro q d h
  rw [lookup_expanded from_plain, Option.map_eq_some_iff] at h
  obtain ⟨r, h1, _⟩ := h
  obtain ⟨k1, k2⟩ := MkTable.Arena.best_mem h1
  rw [begins_expanded from_plain from_sorted, Bool.eq_false_iff]
  intro k
  obtain ⟨x, hx, hb⟩ := List.any_eq_true.1 k
  rw [from_ends k1 k2 x hx] at hb
  cases hb

/-- C96.  Every string with a rule is a reference with the letters of an entity, capitals or not, and gives the character of such an entity. -/
theorem C96_letters (q : List Nat) (d : List Datum) (h : lookup (expanded fromLines) q = some d) :
    ∃ n, q = reference n ∧ ∃ e ∈ entities, n.map small = (lit e.1).map small ∧ d = [uniDatum e.2] := by
  rw [lookup_expanded from_plain, Option.map_eq_some_iff] at h
  obtain ⟨r, h1, rfl⟩ := h
  obtain ⟨k1, k2⟩ := MkTable.Arena.best_mem h1
  obtain ⟨e, he, rfl⟩ := from_mem k1
  obtain ⟨m, rfl, k3⟩ := (ref_covers (entity_ok he).1).1 k2
  exact ⟨m, rfl, e, he, (fits_letters (entity_ok he).1 k3).1, datum_entity he⟩

theorem exactly_self : ∀ (q : List Nat), exactly (q.map fun c => (c, c)) q = q.length
  | [] => rfl
  | c :: q => by simp [exactly, exactly_self q]; omega

theorem exactly_le : ∀ (n q : List Nat), exactly (n.map fun c => (c, c)) q ≤ q.length
  | [], q => by simp [exactly]
  | _ :: _, [] => by simp [exactly]
  | c :: n, d :: q => by
    have := exactly_le n q
    simp only [List.map_cons, exactly, List.length_cons]
    split <;> omega

theorem exactly_full : ∀ {n q : List Nat}, n.length = q.length → q.length ≤ exactly (n.map fun c => (c, c)) q → n = q
  | [], [], _, _ => rfl
  | [], _ :: _, h, _ => by simp at h
  | _ :: _, [], h, _ => by simp at h
  | c :: n, d :: q, h, k => by
    simp only [List.length_cons, Nat.add_right_cancel_iff] at h
    have hle := exactly_le n q
    simp only [List.map_cons, exactly, List.length_cons] at k
    split at k
    · rename_i e
      rw [exactly_full h (by omega), show c = d by omega]
    · omega

theorem reference_inj {n m : List Nat} (h : reference n = reference m) : n = m := by
  simpa [reference] using h

/-- The rule in charge of a reference that stands for a character. -/
theorem means_lookup {n : List Nat} {cp : Nat} (h : Means n cp) : lookup (expanded fromLines) (reference n) = some [uniDatum cp] := by
  obtain ⟨e, he, rfl, h⟩ := h
  have cov : covers (refLine (lit e.1) (uniDatum e.2)) (reference n) = true := by
    refine (ref_covers (entity_ok he).1).2 ⟨n, rfl, ?_⟩
    rcases h with rfl | ⟨h, _⟩
    · exact self_fits _
    · exact small_fits (entity_ok he).1 h
  obtain ⟨x, hx⟩ := Option.isSome_iff_exists.1 (best_isSome.2 ⟨_, entity_mem he, cov⟩)
  rw [lookup_expanded from_plain, hx, Option.map_some]
  have hm := best_most from_cb hx _ (entity_mem he) cov
  obtain ⟨k1, k2⟩ := MkTable.Arena.best_mem hx
  obtain ⟨e', he', rfl⟩ := from_mem k1
  have : e' = e := by
    rcases h with rfl | ⟨h, hu⟩
    · refine name_inj he he' (.inl (reference_inj ?_))
      have hm := Nat.le_trans (Nat.le_of_eq (exactly_self (reference (lit e.1))).symm) hm
      have hl := MkTable.Arena.within_length k2
      exact exactly_full (by simpa [refLine] using hl.symm) hm
    · obtain ⟨m, k3, k4⟩ := (ref_covers (entity_ok he').1).1 k2
      cases reference_inj k3
      exact hu e' he' ((fits_letters (entity_ok he').1 k4).1.symm.trans h)
  subst this
  exact congrArg some (datum_entity he)

/-! ### C96 -/

/-- The phase reads named references: its codecs are the tables `ASCII-NAMED-HTML-ENTITY,ASCII`. -/
structure ReadsNamed (s : Static π) : Prop where
  isFrom : s.type = .from_
  two : s.codecn = 1
  table : Represents (s.codecs 0) (expanded fromLines)
  ascii : Represents (s.codecs 1) Ascii.fromRules

/-- The phase writes them. -/
structure WritesNamed (s : Static π) : Prop where
  isTo : s.type = .to_
  two : s.codecn = 1
  table : Represents (s.codecs 0) (symbolRules toRules)
  ascii : Represents (s.codecs 1) (symbolRules Ascii.toRules)

theorem expanded_data : ∀ r ∈ expanded fromLines, r.2 ≠ [] ∧ ∀ d ∈ r.2, IsBytes d := by
  rintro ⟨q, d⟩ hm
  obtain ⟨r, h1, rfl⟩ := (mem_expanded from_plain).1 hm
  obtain ⟨e, he, rfl⟩ := from_mem (MkTable.Arena.best_mem h1).1
  simp only [refLine]
  rw [datum_entity he]
  exact ⟨by simp, fun d hd => by simp only [List.mem_singleton] at hd; subst hd; exact uniDatum_bytes _⟩

theorem expanded_head {r : List Nat × List Datum} (hr : r ∈ expanded fromLines) :
    ∃ m, r.1 = reference m ∧ ∃ e ∈ entities, m.map small = (lit e.1).map small := by
  obtain ⟨q, d⟩ := r
  obtain ⟨x, h1, _⟩ := (mem_expanded from_plain).1 hr
  obtain ⟨k1, k2⟩ := MkTable.Arena.best_mem h1
  obtain ⟨e, he, rfl⟩ := from_mem k1
  obtain ⟨m, h, k⟩ := (ref_covers (entity_ok he).1).1 k2
  exact ⟨m, h, e, he, (fits_letters (entity_ok he).1 k).1⟩

theorem means_alnum {n : List Nat} {cp : Nat} (h : Means n cp) : (∀ c ∈ n, alnum c = true) ∧ Scalar cp := by
  obtain ⟨e, he, rfl, h⟩ := h
  refine ⟨?_, (entity_ok he).2.1⟩
  rcases h with rfl | ⟨h, _⟩
  · exact (entity_ok he).1
  · exact (fits_letters (entity_ok he).1 (small_fits (entity_ok he).1 h)).2

theorem reference_bytes {n : List Nat} (h : ∀ c ∈ n, alnum c = true) : IsBytes (reference n) := by
  intro c hc
  simp only [reference, List.cons_append, List.mem_cons, List.mem_append, List.not_mem_nil, or_false] at hc
  rcases hc with rfl | hc | rfl
  · decide
  · have := alnum_iff.1 (h c hc)
    omega
  · decide

theorem text_scalar {T cps : List Nat} (h : Text T cps) : IsBytes T ∧ ∀ cp ∈ cps, Scalar cp := by
  induction h with
  | nil => exact ⟨by simp [IsBytes], by simp⟩
  | @plain c s cps h1 h2 _ _ ih =>
    refine ⟨?_, ?_⟩
    · intro b hb
      rcases List.mem_cons.1 hb with rfl | hb
      · omega
      · exact ih.1 b hb
    · intro x hx
      rcases List.mem_cons.1 hx with rfl | hx
      · unfold Scalar Surrogate; omega
      · exact ih.2 x hx
  | @ref n s cps cp h1 _ ih =>
    refine ⟨fun b hb => (List.mem_append.1 hb).elim (reference_bytes (means_alnum h1).1 b) (ih.1 b), ?_⟩
    intro x hx
    rcases List.mem_cons.1 hx with rfl | hx
    · exact (means_alnum h1).2
    · exact ih.2 x hx
  | @amp s cps _ _ ih =>
    refine ⟨?_, ?_⟩
    · intro b hb
      rcases List.mem_cons.1 hb with rfl | hb
      · decide
      · exact ih.1 b hb
    · intro x hx
      rcases List.mem_cons.1 hx with rfl | hx
      · unfold Scalar Surrogate; omega
      · exact ih.2 x hx

/-- The tables of a phase that reads named references. -/
def namedTables (j : Nat) : Rules Nat (List Datum) := if j = 0 then expanded fromLines else Ascii.fromRules

theorem ascii_char {c : Nat} (h1 : 1 ≤ c) (h2 : c < 0x80) : lookup (namedTables 1) [c] = some [uniDatum c] := by
  simp only [namedTables, Nat.one_ne_zero, if_false]
  exact (fromAscii_lookup _ _).2 ⟨c, h1, h2, rfl, by rw [uniDatum, be1 (by omega)]⟩

theorem text_lexed {T cps : List Nat} (h : Text T cps) : Lexed namedTables 1 T cps := by
  induction h with
  | nil => exact .nil
  | @plain c s cps h1 h2 h3 _ ih =>
    refine .cons (j := 1) (q := [c]) (Nat.le_refl _) (by simp) (ascii_char h1 h2) ?_ ih
    intro i hi r hr
    obtain rfl : i = 0 := by omega
    obtain ⟨m, e, _⟩ := expanded_head hr
    rw [e]
    rintro ⟨t, ht⟩
    simp only [reference, List.cons_append, List.nil_append, List.cons.injEq] at ht
    exact h3 ht.1.symm
  | @ref n s cps cp h1 _ ih =>
    exact .cons (j := 0) (Nat.zero_le _) (by simp [reference]) (means_lookup h1) (fun i hi => absurd hi (by omega)) ih
  | @amp s cps h1 _ ih =>
    refine .cons (j := 1) (q := [38]) (Nat.le_refl _) (by simp) (ascii_char (by decide) (by decide)) ?_ ih
    intro i hi r hr
    obtain rfl : i = 0 := by omega
    obtain ⟨m, e, x, hx, k⟩ := expanded_head hr
    rw [e]
    intro hp
    exact h1 m hp x hx k

/-- Such a phase reads a text, cut anywhere, as the characters it stands for. -/
theorem named_readsAs {s : Static π} (h : ReadsNamed s) (p : Nat → π) {T cps : List Nat} (ht : Text T cps) : ReadsAs s p T cps := by
  refine tables_lex (Rs := namedTables) h.isFrom ?_ p (text_scalar ht).1 (by rw [h.two]; exact text_lexed ht)
  intro j hj
  rw [h.two] at hj
  obtain rfl | rfl : j = 0 ∨ j = 1 := by omega
  · exact ⟨h.table, from_prefixFree, expanded_data⟩
  · exact ⟨h.ascii, fromAscii_prefixFree, ascii_data⟩

/-- The characters of the table. -/
def namedEnc (cp : Nat) : List Nat := (written cp).getD []
def namedTakes (cp : Nat) : Bool := (written cp).isSome

theorem find_entity {cp : Nat} : (∃ e ∈ entities, e.2 = cp ∧ entities.find? (fun e => e.2 == cp) = some e) ∨
    (entities.find? (fun e => e.2 == cp) = none ∧ ∀ e ∈ entities, e.2 ≠ cp) := by
  cases h : entities.find? (fun e => e.2 == cp) with
  | some e => exact .inl ⟨e, List.mem_of_find?_eq_some h, by simpa using List.find?_some h, rfl⟩
  | none => exact .inr ⟨rfl, by simpa using h⟩

theorem to_mem {r : List Datum × List Datum} (h : r ∈ toRules) : ∃ e ∈ entities, r = ([uniDatum e.2], [reference (lit e.1)]) := by
  obtain ⟨e, he, rfl⟩ := List.mem_map.1 h
  exact ⟨e, he, rfl⟩

theorem to_lookup {cp : Nat} (hcp : Scalar cp) : lookup toRules [uniDatum cp] = (entities.find? fun e => e.2 == cp).map fun e => [reference (lit e.1)] := by
  unfold Scalar at hcp
  rcases find_entity (cp := cp) with ⟨e, he, rfl, hf⟩ | ⟨hf, hn⟩
  · rw [hf, Option.map_some]
    refine MkTable.lookup_unique (List.mem_map.2 ⟨e, he, rfl⟩) ?_
    intro d hd
    obtain ⟨e', he', k⟩ := to_mem hd
    simp only [Prod.mk.injEq, List.cons.injEq, and_true] at k
    have hs := (entity_ok he').2.1
    unfold Scalar at hs
    have := uni_inj (by omega) (by omega) k.1
    rw [name_inj he he' (.inr this.symm)] at k
    exact k.2
  · rw [hf, Option.map_none]
    cases hl : lookup toRules [uniDatum cp] with
    | none => rfl
    | some d =>
      obtain ⟨e, he, k⟩ := to_mem (Verif.Spec.lookup_mem hl)
      simp only [Prod.mk.injEq, List.cons.injEq, and_true] at k
      have hs := (entity_ok he).2.1
      unfold Scalar at hs
      exact absurd (uni_inj (by omega) (by omega) k.1).symm (hn e he)

theorem to_good : GoodRules toRules ∧ ∀ r ∈ toRules, r.1.length ≤ 1 := by
  constructor
  · intro r hr
    obtain ⟨e, he, rfl⟩ := to_mem hr
    refine ⟨by simp, ?_, by simp, fun d hd => by
      simp only [List.mem_singleton] at hd
      subst hd
      exact ⟨by simp [reference], reference_bytes (entity_ok he).1⟩⟩
    · intro d hd
      simp only [List.mem_singleton] at hd
      subst hd
      exact ⟨by simp [uniDatum], uniDatum_bytes _⟩
  · intro r hr
    obtain ⟨e, he, rfl⟩ := to_mem hr
    exact Nat.le_refl _

/-- A phase that writes named references is a target in the sense of C63. -/
theorem named_target {s : Static π} (h : WritesNamed s) : (Target.table namedEnc namedTakes).Is s := by
  refine .tables (fun j => if j = 0 then toRules else Ascii.toRules) _ _ h.isTo ?_ ?_
  · intro j hj
    rw [h.two] at hj
    obtain rfl | rfl : j = 0 ∨ j = 1 := by omega
    · exact ⟨h.table, to_good⟩
    · exact ⟨h.ascii, toAscii_good⟩
  · intro cp hcp
    rw [h.two]
    have e : List.range (1 + 1) = [0, 1] := rfl
    rw [e]
    simp only [List.findSome?_cons, List.findSome?_nil, if_true, Nat.one_ne_zero, if_false]
    rw [to_lookup hcp]
    unfold namedTakes namedEnc written
    rcases find_entity (cp := cp) with ⟨e, he, rfl, hf⟩ | ⟨hf, hn⟩
    · rw [hf]; rfl
    · have hd : cp ≠ 0x2DC := fun k => hn ("tilde", 0x2DC) (by decide +kernel) k.symm
      rw [hf, Option.map_none, to_ascii hcp hd]
      by_cases h1 : 1 ≤ cp ∧ cp < 0x80
      · simp only [if_pos h1]; rfl
      · simp only [if_neg h1]; rfl

theorem written_flat (cps : List Nat) : (cps.filter namedTakes).flatMap namedEnc = (cps.filterMap written).flatten := by
  induction cps with
  | nil => rfl
  | cons cp cps ih =>
    cases h : written cp with
    | none => rw [List.filter_cons_of_neg (by simp [namedTakes, h]), List.filterMap_cons_none h, ih]
    | some c =>
      rw [List.filter_cons_of_pos (by simp [namedTakes, h]), List.filterMap_cons_some h, List.flatMap_cons, List.flatten_cons, ih]
      simp [namedEnc, h]

/-- C96, reading.  `ASCII-NAMED-HTML-ENTITY,ASCII:b`, with `b` any encoding of C63: a text of ASCII characters and named references, cut anywhere, comes out as the
characters it stands for. -/
theorem C96_reads {st : Nat → Static π} {ip : Nat → Nat → π → π} {ins : Ins π} {b : Target}
    (hn : ins.phasen = 2) (ha : ReadsNamed (st 1)) (hb : b.Is (st 2)) (T cps : List Nat) (hT : Text T cps)
    (as : List Arg) (l : Arg) (h1 : ∀ x ∈ as, x.flush = false) (h2 : l.flush = true) (h3 : ∀ x ∈ as ++ [l], x.mode ≠ .null)
    (h4 : ((as ++ [l]).filterMap (fun x => x.input)).flatten = T) :
    ∃ ds ins', Session st (ins.init st ip) (as ++ [l]) ds ins' ∧
      (ds.map (fun d => d.bytes)).flatten ++ ins'.pending.flatten = (cps.filter b.takes).flatMap b.enc ∧
      ins'.ierr = ins.ierr ∧ ins'.oerr = ins.oerr + (cps.filter fun cp => !b.takes cp).length := by
  obtain ⟨ds, ins', k1, k2, k3, k4⟩ := C63_reads (mid := []) hn _ _ (named_readsAs ha _ hT) hb (fun k h => absurd h (by simp)) (by simp)
    (text_scalar hT).2 trivial rfl as l h1 h2 h3 h4
  exact ⟨ds, ins', k1, k2, k3, k4⟩

/-- C96, writing.  `a:ASCII-NAMED-HTML-ENTITY,ASCII`: every character with a name comes out as a reference, the other ASCII characters as themselves; the others are
left out and counted. -/
theorem C96_writes {st : Nat → Static π} {ip : Nat → Nat → π → π} {ins : Ins π} {a : Source}
    (hn : ins.phasen = 2) (ha : a.Is (st 1) (initPriv st ip ins 1)) (hb : WritesNamed (st 2)) (cps : List Nat) (hcps : ∀ cp ∈ cps, a.Has cp ∧ Scalar cp)
    (as : List Arg) (l : Arg) (h1 : ∀ x ∈ as, x.flush = false) (h2 : l.flush = true) (h3 : ∀ x ∈ as ++ [l], x.mode ≠ .null)
    (h4 : ((as ++ [l]).filterMap (fun x => x.input)).flatten = cps.flatMap a.enc) :
    ∃ ds ins', Session st (ins.init st ip) (as ++ [l]) ds ins' ∧
      (ds.map (fun d => d.bytes)).flatten ++ ins'.pending.flatten = (cps.filterMap written).flatten ∧
      ins'.ierr = ins.ierr ∧ ins'.oerr = ins.oerr + (cps.filter fun cp => (written cp).isNone).length := by
  obtain ⟨ds, ins', k1, k2, k3, k4⟩ := C63_transcode hn ha (named_target hb) cps hcps as l h1 h2 h3 h4
  refine ⟨ds, ins', k1, k2.trans (written_flat cps), k3, k4.trans ?_⟩
  congr 3
  funext cp
  simp [Target.takes, namedTakes]

/-- What is written for a character stands for it. -/
theorem written_text {cp : Nat} {q s cps : List Nat} (h : written cp = some q) (ht : Text s cps) : Text (q ++ s) (cp :: cps) := by
  unfold written at h
  rcases find_entity (cp := cp) with ⟨e, he, rfl, hf⟩ | ⟨hf, hn⟩
  · rw [hf] at h
    cases h
    exact .ref ⟨e, he, rfl, .inl rfl⟩ ht
  · rw [hf] at h
    simp only at h
    split at h
    · rename_i h1
      cases h
      exact .plain h1.1 h1.2 (fun k => hn ("amp", 38) (by decide +kernel) k.symm) ht
    · cases h

theorem texts_of : ∀ (cps : List Nat), (∀ cp ∈ cps, (written cp).isSome = true) → Text (cps.filterMap written).flatten cps
  | [], _ => .nil
  | cp :: cps, h => by
    obtain ⟨q, hq⟩ := Option.isSome_iff_exists.1 (h cp (by simp))
    rw [List.filterMap_cons_some hq, List.flatten_cons]
    exact written_text hq (texts_of cps fun x hx => h x (by simp [hx]))

/-- C96, there and back.  A text of ASCII characters and characters with a name, written with references by one instance and read by another — cut anew in any way —
is the text it was. -/
theorem C96_round_trip {st st' : Nat → Static π} {ip ip' : Nat → Nat → π → π} {ins ins0 : Ins π} {a : Source} {c : Target}
    (hn : ins.phasen = 2) (ha : a.Is (st 1) (initPriv st ip ins 1)) (hb : WritesNamed (st 2))
    (hn' : ins0.phasen = 2) (hb' : ReadsNamed (st' 1)) (hc : c.Is (st' 2)) (cps : List Nat)
    (hcps : ∀ cp ∈ cps, Scalar cp ∧ a.Has cp ∧ c.takes cp = true ∧ (cp < 0x80 ∨ ∃ e ∈ entities, e.2 = cp))
    (as : List Arg) (l : Arg) (h1 : ∀ x ∈ as, x.flush = false) (h2 : l.flush = true) (h3 : ∀ x ∈ as ++ [l], x.mode ≠ .null)
    (h4 : ((as ++ [l]).filterMap (fun x => x.input)).flatten = cps.flatMap a.enc) :
    ∃ ds ins', Session st (ins.init st ip) (as ++ [l]) ds ins' ∧ ins'.ierr = ins.ierr ∧ ins'.oerr = ins.oerr ∧
      ∀ (as' : List Arg) (l' : Arg), (∀ x ∈ as', x.flush = false) → l'.flush = true → (∀ x ∈ as' ++ [l'], x.mode ≠ .null) →
        ((as' ++ [l']).filterMap (fun x => x.input)).flatten = (ds.map (fun d => d.bytes)).flatten ++ ins'.pending.flatten →
        ∃ ds' ins'', Session st' (ins0.init st' ip') (as' ++ [l']) ds' ins'' ∧ ins''.ierr = ins0.ierr ∧ ins''.oerr = ins0.oerr ∧
          (ds'.map (fun d => d.bytes)).flatten ++ ins''.pending.flatten = cps.flatMap c.enc := by
  have hw : ∀ cp ∈ cps, (written cp).isSome = true := by
    intro cp hcp
    obtain ⟨s1, _, _, s2⟩ := hcps cp hcp
    unfold written
    rcases find_entity (cp := cp) with ⟨e, he, rfl, hf⟩ | ⟨hf, hn⟩
    · rw [hf]; rfl
    · rw [hf]
      rcases s2 with s2 | ⟨e, he, k⟩
      · simp only [if_pos (show 1 ≤ cp ∧ cp < 0x80 from ⟨by unfold Scalar at s1; omega, s2⟩)]; rfl
      · exact absurd k (hn e he)
  obtain ⟨ds, ins', k1, k2, k3, k4⟩ := C96_writes hn ha hb cps (fun cp h => ⟨(hcps cp h).2.1, (hcps cp h).1⟩) as l h1 h2 h3 h4
  have hnone : (cps.filter fun cp => (written cp).isNone) = [] := by
    rw [List.filter_eq_nil_iff]
    intro cp h
    have := hw cp h
    cases hq : written cp with
    | none => rw [hq] at this; cases this
    | some _ => simp
  rw [hnone] at k4
  refine ⟨ds, ins', k1, k3, k4, ?_⟩
  intro as' l' g1 g2 g3 g4
  rw [k2] at g4
  obtain ⟨ds', ins'', m1, m2, m3, m4⟩ := C96_reads (b := c) (ip := ip') hn' hb' hc _ cps (texts_of cps hw) as' l' g1 g2 g3 g4
  have hall : cps.filter c.takes = cps ∧ (cps.filter fun cp => !c.takes cp) = [] := by
    refine ⟨List.filter_eq_self.2 fun cp h => (hcps cp h).2.2.1, ?_⟩
    rw [List.filter_eq_nil_iff]
    intro cp h
    simp [(hcps cp h).2.2.1]
  rw [hall.1] at m2
  rw [hall.2] at m4
  exact ⟨ds', ins'', m1, m3, m4, m2⟩

/-- Names of HTML 4 that the files lack; and others, with their characters, that it knows only up to case. -/
def lacking : List String := ["alefsym", "exist", "frasl", "image", "lang", "rang", "real", "weierp"]
def doubleArrows : List (String × Nat) := [("lArr", 0x21D0), ("uArr", 0x21D1), ("rArr", 0x21D2), ("dArr", 0x21D3), ("hArr", 0x21D4)]

theorem lacking_none : (lacking.all fun n => entities.all fun e => (lit n).map small != (lit e.1).map small) = true := by decide +kernel

theorem arrows_mean : ∀ x ∈ doubleArrows, ∃ e ∈ entities, e.2 + 0x40 = x.2 ∧ (lit x.1).map small = lit e.1 ∧ ∀ e' ∈ entities, (lit e'.1).map small = lit e.1 → e' = e := by
  decide +kernel

/-- C96 is not what HTML says: U+2203 is written `&exists;`; these references of HTML 4, `&exist;` among them, have no rule; and the double arrows `&rArr;`, … are read
as the single ones. -/
theorem C96_html_violated : written 0x2203 = some (reference (lit "exists")) ∧ (∀ n ∈ lacking, lookup (expanded fromLines) (reference (lit n)) = none) ∧
    ∀ x ∈ doubleArrows, Means (lit x.1) (x.2 - 0x40) := by
  refine ⟨by decide +kernel, ?_, ?_⟩
  · intro n hn
    cases h : lookup (expanded fromLines) (reference (lit n)) with
    | none => rfl
    | some d =>
      obtain ⟨m, k, e, he, k1, _⟩ := C96_letters _ _ h
      cases reference_inj k
      have := List.all_eq_true.1 (List.all_eq_true.1 lacking_none n hn) e he
      simp only [bne_iff_ne] at this
      exact absurd k1 this
  · intro x hx
    obtain ⟨e, he, k1, k2, k3⟩ := arrows_mean x hx
    exact ⟨e, he, by omega, .inr ⟨k2, k3⟩⟩

/-! ### A conversion -/

/-- `ASCII-NAMED-HTML-ENTITY,ASCII:ASCII-NAMED-HTML-ENTITY,ASCII` -/
def namedConv (k : Nat) : Static Unit :=
  if k = 1 then ⟨.from_, fun j => if j = 0 then compiled _ fromLines else trieCodec Ascii.fromRules, 1⟩
  else ⟨.to_, fun j => if j = 0 then trieCodec (symbolRules toRules) else trieCodec (symbolRules Ascii.toRules), 1⟩

theorem namedConv_reads : ReadsNamed (namedConv 1) := ⟨rfl, rfl, C96_image, trieAscii⟩

theorem namedConv_writes : WritesNamed (namedConv 2) := by
  refine ⟨rfl, rfl, ?_, trieToAscii⟩
  refine represents_trie _ ?_
  intro r hr
  obtain ⟨q, hq, rfl⟩ := List.mem_map.1 hr
  obtain ⟨e, he, rfl⟩ := to_mem hq
  simp [symbols, uniDatum]

theorem means_named {e : String × Nat} (he : e ∈ entities) : Means (lit e.1) e.2 := ⟨e, he, rfl, .inl rfl⟩

-- `a&EURO;&&Auml;`, cut inside a name, comes out as `a&euro;&amp;&Auml;`.
example : ∃ ds ins', Session namedConv
      (({ ph := fun _ => { priv := fun _ => () }, phasen := 2 } : Ins Unit).init namedConv (fun _ _ t => t))
      ([⟨some (lit "a&EU"), false, .file⟩] ++ [⟨some (lit "RO;&&Auml;"), true, .file⟩]) ds ins' ∧
    (ds.map (fun d => d.bytes)).flatten ++ ins'.pending.flatten = lit "a&euro;&amp;&Auml;" ∧ ins'.ierr = 0 ∧ ins'.oerr = 0 := by
  have h1 : Means (lit "EURO") 0x20AC := ⟨("euro", 0x20AC), by decide +kernel, rfl, .inr (by decide +kernel)⟩
  have h2 : Means (lit "Auml") 0xC4 := means_named (e := ("Auml", 0xC4)) (by decide +kernel)
  have ht : Text ([0x61] ++ (reference (lit "EURO") ++ ([38] ++ (reference (lit "Auml") ++ [])))) [0x61, 0x20AC, 38, 0xC4] := by
    refine .plain (by decide) (by decide) (by decide) (.ref h1 (.amp ?_ (.ref h2 .nil)))
    intro n hp e he k
    have hb : ∀ c ∈ n, small c ≠ 38 := by
      intro c hc h
      have : small c ∈ (lit e.1).map small := k ▸ List.mem_map_of_mem hc
      obtain ⟨d, hd, e1⟩ := List.mem_map.1 this
      have := alnum_iff.1 ((entity_ok he).1 d hd)
      rw [h] at e1
      unfold small at e1
      split at e1 <;> omega
    obtain ⟨t, ht⟩ := hp
    cases n with
    | nil => simp [reference] at ht
    | cons c n =>
      have h0 : c = 38 := by
        have := congrArg (fun l => l[1]?) ht
        simpa [reference] using this
      exact hb c (by simp) (by rw [h0]; decide)
  obtain ⟨ds, ins', k1, k2, k3, k4⟩ := C96_reads (st := namedConv) (ip := fun _ _ t => t) (ins := { ph := fun _ => { priv := fun _ => () }, phasen := 2 })
    rfl namedConv_reads (named_target namedConv_writes) _ _ ht
    [⟨some (lit "a&EU"), false, .file⟩] ⟨some (lit "RO;&&Auml;"), true, .file⟩ (by simp) rfl (by simp) (by decide +kernel)
  refine ⟨ds, ins', k1, k2.trans ?_, k3, k4.trans ?_⟩
  · show (List.filter namedTakes _).flatMap namedEnc = _
    decide +kernel
  · show _ + (List.filter (fun cp => !namedTakes cp) _).length = _
    decide +kernel

end Verif.Props
