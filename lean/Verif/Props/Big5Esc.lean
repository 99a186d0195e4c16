import Verif.Spec.Big5Esc
import Verif.Props.Lex
import Verif.Props.Big5

/-! C97: BIG5-5C. -/

namespace Verif.Props
open Verif.Spec
open Verif.Engine hiding Datum step

variable {π : Type}

namespace Esc
open Verif.Big5Esc
open Verif.Spec.Big5Esc

/-- The phase reads the set with BIG5-5C in front: `BIG5-5C,ASCII,_X`. -/
structure ReadsEsc (s : Static π) (x : Charset) : Prop where
  isFrom : s.type = .from_
  three : s.codecn = 2
  esc : Represents (s.codecs 0) fromRules
  ascii : Represents (s.codecs 1) Ascii.fromRules
  table : Represents (s.codecs 2) x.fromRules

/-- The phase writes the set with BIG5-5C in front: `BIG5-5C,_X,ASCII`. -/
structure WritesEsc (s : Static π) (x : Charset) : Prop where
  isTo : s.type = .to_
  three : s.codecn = 2
  esc : Represents (s.codecs 0) (symbolRules toRules)
  table : Represents (s.codecs 1) (symbolRules x.toRules)
  ascii : Represents (s.codecs 2) (symbolRules Ascii.toRules)

theorem rows_ok : (rows.all fun r => decide (0xA1 ≤ r.1 ∧ r.1 < 0x100 ∧ 0x80 ≤ r.2 ∧ r.2 < 0x10000 ∧ ¬ Surrogate r.2)) = true := by decide +kernel

theorem row_ok {r : Nat × Nat} (h : r ∈ rows) : 0xA1 ≤ r.1 ∧ r.1 < 0x100 ∧ 0x80 ≤ r.2 ∧ Scalar r.2 := by
  have := of_decide_eq_true (List.all_eq_true.1 rows_ok r h)
  exact ⟨this.1, this.2.1, this.2.2.1, by unfold Scalar; exact ⟨by omega, by omega, this.2.2.2.2⟩⟩

theorem bytes_distinct : distinct (rows.map Prod.fst) = true := by decide +kernel
theorem chars_distinct : distinct (rows.map Prod.snd) = true := by decide +kernel

theorem esc_mem {r : List Nat × List Datum} (h : r ∈ fromRules) : ∃ a ∈ rows, r = ([a.1, 0x5C, 0x5C], [uniDatum a.2]) := by
  obtain ⟨a, ha, rfl⟩ := List.mem_map.1 h
  exact ⟨a, ha, rfl⟩

theorem esc_lookup {a : Nat × Nat} (h : a ∈ rows) : lookup fromRules [a.1, 0x5C, 0x5C] = some [uniDatum a.2] := by
  refine MkTable.lookup_unique (List.mem_map.2 ⟨a, h, rfl⟩) ?_
  intro d hd
  obtain ⟨b, hb, k⟩ := esc_mem hd
  simp only [Prod.mk.injEq, List.cons.injEq, and_true] at k
  rw [k.2, distinct_inj Prod.fst bytes_distinct b hb a h k.1]

theorem esc_prefixFree : PrefixFree fromRules := by
  intro p b h
  obtain ⟨r, hr, e, _⟩ := single_lookup_none.lookup_some_mem h
  obtain ⟨a, ha, rfl⟩ := esc_mem hr
  simp only at e
  subst e
  rw [extendable, List.any_eq_false]
  intro r' hr'
  obtain ⟨a', ha', rfl⟩ := esc_mem hr'
  simp only [List.isPrefixOf, Bool.and_true, Bool.and_eq_true, beq_iff_eq, bne_iff_ne, ne_eq, not_and, Decidable.not_not]
  intro k
  simp [k.1]

theorem esc_data : ∀ r ∈ fromRules, r.2 ≠ [] ∧ ∀ d ∈ r.2, IsBytes d := by
  intro r hr
  obtain ⟨a, ha, rfl⟩ := esc_mem hr
  refine ⟨by simp, ?_⟩
  intro d hd
  simp only [List.mem_singleton] at hd
  subst hd
  exact uniDatum_bytes _

theorem from_data {x : Charset} : ∀ r ∈ x.fromRules, r.2 ≠ [] ∧ ∀ d ∈ r.2, IsBytes d := by
  intro r hr
  obtain ⟨a, ha, rfl⟩ := List.mem_map.1 hr
  refine ⟨by simp, ?_⟩
  intro d hd
  simp only [List.mem_singleton] at hd
  subst hd
  exact uniDatum_bytes _

/-- The tables of such a phase. -/
def escTables (x : Charset) (j : Nat) : Rules Nat (List Datum) := if j = 0 then fromRules else if j = 1 then Ascii.fromRules else x.fromRules

theorem text_bytes {x : Charset} (hx : x.fine = true) {T cps : List Nat} (h : Text x T cps) : IsBytes T ∧ ∀ cp ∈ cps, Scalar cp := by
  induction h with
  | nil => exact ⟨by simp [IsBytes], by simp⟩
  | @escaped r s cps hr _ ih =>
    obtain ⟨h1, h2, _, h4⟩ := row_ok hr
    refine ⟨?_, ?_⟩
    · intro b hb
      simp only [List.mem_cons] at hb
      rcases hb with rfl | rfl | rfl | hb
      · exact h2
      · decide
      · decide
      · exact ih.1 b hb
    · intro y hy
      rcases List.mem_cons.1 hy with rfl | hy
      · exact h4
      · exact ih.2 y hy
  | @code c cp s cps hc _ _ ih =>
    have hcp : c < 0x10000 ∧ Scalar cp := by
      unfold Charset.char at hc
      split at hc
      · cases hc
        exact ⟨by omega, by unfold Scalar Surrogate; omega⟩
      · exact ((Charset.fine_iff hx).codes _ (Chart.find_mem hc)).2
    refine ⟨fun b hb => (List.mem_append.1 hb).elim ((code_bytes hcp.1).1 b) (ih.1 b), ?_⟩
    intro y hy
    rcases List.mem_cons.1 hy with rfl | hy
    · exact hcp.2
    · exact ih.2 y hy

theorem text_lexed {x : Charset} (hx : x.fine = true) (hh : x.high = true) {T cps : List Nat} (h : Text x T cps) : Lexed (escTables x) 2 T cps := by
  have hf := Charset.fine_iff hx
  induction h with
  | nil => exact .nil
  | @escaped r s cps hr _ ih =>
    exact .cons (j := 0) (q := [r.1, 0x5C, 0x5C]) (Nat.zero_le _) (by simp) (esc_lookup hr) (fun i hi => absurd hi (by omega)) ih
  | @code c cp s cps hc hn _ ih =>
    have h0 : ∀ r ∈ fromRules, ¬ r.1 <+: beBytes c ++ s := by
      intro r hr
      obtain ⟨a, ha, rfl⟩ := esc_mem hr
      exact hn a ha
    unfold Charset.char at hc
    split at hc
    · rename_i h1
      cases hc
      have e : beBytes c = [c] := be1 (by omega)
      rw [e] at h0 ⊢
      refine .cons (j := 1) (by decide) (by simp) ?_ ?_ ih
      · exact (fromAscii_lookup _ _).2 ⟨c, h1.1, h1.2, rfl, by rw [uniDatum, be1 (by omega)]⟩
      · intro i hi
        obtain rfl : i = 0 := by omega
        exact h0
    · have hm := Chart.find_mem hc
      obtain ⟨k1, k2, _⟩ := hf.codes _ hm
      simp only at k1 k2
      refine .cons (j := 2) (by decide) (code_length k2).2 ?_ ?_ ih
      · show lookup x.fromRules (beBytes c) = _
        rw [fromRules_lookup hf k2, hc]
        rfl
      · intro i hi
        obtain rfl | rfl : i = 0 ∨ i = 1 := by omega
        · exact h0
        · intro r hr hp
          have hhigh := high_pairs hh hm
          simp only at hhigh
          obtain ⟨d, d1, d2, rfl⟩ := fromAscii_mem hr
          obtain ⟨t, ht⟩ := hp
          rcases (code_bytes k2).2 with ⟨g1, g2⟩ | ⟨g1, g2⟩ <;> rw [g2] at ht <;> simp at ht <;> omega

theorem esc_readsAs {s : Static π} {x : Charset} (hx : x.fine = true) (hh : x.high = true) (h : ReadsEsc s x) (p : Nat → π) {T cps : List Nat} (ht : Text x T cps) :
    ReadsAs s p T cps := by
  refine tables_lex (Rs := escTables x) h.isFrom ?_ p (text_bytes hx ht).1 (by rw [h.three]; exact text_lexed hx hh ht)
  intro j hj
  rw [h.three] at hj
  obtain rfl | rfl | rfl : j = 0 ∨ j = 1 ∨ j = 2 := by omega
  · exact ⟨h.esc, esc_prefixFree, esc_data⟩
  · exact ⟨h.ascii, fromAscii_prefixFree, ascii_data⟩
  · exact ⟨h.table, fromRules_prefixFree (Charset.fine_iff hx), from_data⟩

/-! ### writing -/

def escEnc (x : Charset) (cp : Nat) : List Nat := (written x cp).getD []
def escTakes (x : Charset) (cp : Nat) : Bool := (written x cp).isSome

theorem find_row {cp : Nat} : (∃ r ∈ rows, r.2 = cp ∧ rows.find? (fun r => Nat.beq r.2 cp) = some r) ∨
    (rows.find? (fun r => Nat.beq r.2 cp) = none ∧ ∀ r ∈ rows, r.2 ≠ cp) := by
  cases h : rows.find? (fun r => Nat.beq r.2 cp) with
  | some r =>
    have k : Nat.beq r.2 cp = true := by
      have := List.find?_some (p := fun r : Nat × Nat => Nat.beq r.2 cp) h
      exact this
    exact .inl ⟨r, List.mem_of_find?_eq_some h, Nat.eq_of_beq_eq_true k, rfl⟩
  | none =>
    refine .inr ⟨rfl, fun r hr k => ?_⟩
    have := List.find?_eq_none.1 h r hr
    rw [k, Nat.beq_refl] at this
    exact this rfl

theorem to_mem {r : List Datum × List Datum} (h : r ∈ toRules) : ∃ a ∈ rows, r = ([uniDatum a.2], [[a.1, 0x5C, 0x5C]]) := by
  obtain ⟨e, he, rfl⟩ := List.mem_map.1 h
  exact ⟨e, he, rfl⟩

theorem to_lookup {cp : Nat} (hcp : Scalar cp) : lookup toRules [uniDatum cp] = (rows.find? fun r => Nat.beq r.2 cp).map fun r => [[r.1, 0x5C, 0x5C]] := by
  unfold Scalar at hcp
  rcases find_row (cp := cp) with ⟨e, he, rfl, hf⟩ | ⟨hf, hn⟩
  · rw [hf, Option.map_some]
    refine MkTable.lookup_unique (List.mem_map.2 ⟨e, he, rfl⟩) ?_
    intro d hd
    obtain ⟨e', he', k⟩ := to_mem hd
    simp only [Prod.mk.injEq, List.cons.injEq, and_true] at k
    have hs := (row_ok he').2.2.2
    unfold Scalar at hs
    have := uni_inj (by omega) (by omega) k.1
    rw [distinct_inj Prod.snd chars_distinct e he e' he' this.symm] at k
    exact k.2
  · rw [hf, Option.map_none]
    cases hl : lookup toRules [uniDatum cp] with
    | none => rfl
    | some d =>
      obtain ⟨e, he, k⟩ := to_mem (Verif.Spec.lookup_mem hl)
      simp only [Prod.mk.injEq, List.cons.injEq, and_true] at k
      have hs := (row_ok he).2.2.2
      unfold Scalar at hs
      exact absurd (uni_inj (by omega) (by omega) k.1).symm (hn e he)

theorem to_good : GoodRules toRules ∧ ∀ r ∈ toRules, r.1.length ≤ 1 := by
  constructor
  · intro r hr
    obtain ⟨e, he, rfl⟩ := to_mem hr
    refine ⟨by simp, ?_, by simp, fun d hd => by
      simp only [List.mem_singleton] at hd
      subst hd
      refine ⟨by simp, ?_⟩
      intro b hb
      simp only [List.mem_cons, List.not_mem_nil, or_false] at hb
      have := (row_ok he).2.1
      rcases hb with rfl | rfl | rfl <;> omega⟩
    intro d hd
    simp only [List.mem_singleton] at hd
    subst hd
    exact ⟨by simp [uniDatum], uniDatum_bytes _⟩
  · intro r hr
    obtain ⟨e, he, rfl⟩ := to_mem hr
    exact Nat.le_refl _

/-- A phase that writes with BIG5-5C is a target in the sense of C63. -/
theorem esc_target {s : Static π} {x : Charset} (hx : x.fine = true) (h : WritesEsc s x) : (Target.table (escEnc x) (escTakes x)).Is s := by
  have hf := Charset.fine_iff hx
  refine .tables (fun j => if j = 0 then toRules else if j = 1 then x.toRules else Ascii.toRules) _ _ h.isTo ?_ ?_
  · intro j hj
    rw [h.three] at hj
    obtain rfl | rfl | rfl : j = 0 ∨ j = 1 ∨ j = 2 := by omega
    · exact ⟨h.esc, to_good⟩
    · exact ⟨h.table, toRules_good hf⟩
    · exact ⟨h.ascii, toAscii_good⟩
  · intro cp hcp
    have hc := charset_lookup hf hcp
    rw [h.three]
    have e : List.range (2 + 1) = [0, 1, 2] := rfl
    rw [e]
    simp only [List.findSome?_cons, List.findSome?_nil, if_true, Nat.one_ne_zero, if_false, show (2 : Nat) ≠ 0 by decide, show (2 : Nat) ≠ 1 by decide]
    rw [to_lookup hcp]
    unfold escTakes escEnc written
    rcases find_row (cp := cp) with ⟨r, hr, rfl, hw⟩ | ⟨hw, _⟩
    · rw [hw]; rfl
    · rw [hw, Option.map_none]
      simp only [List.findSome?_cons, List.findSome?_nil] at hc
      simp only
      rw [hc]
      cases x.code cp <;> rfl

theorem written_flat (x : Charset) (cps : List Nat) : (cps.filter (escTakes x)).flatMap (escEnc x) = (cps.filterMap (written x)).flatten := by
  induction cps with
  | nil => rfl
  | cons cp cps ih =>
    cases h : written x cp with
    | none => rw [List.filter_cons_of_neg (by simp [escTakes, h]), List.filterMap_cons_none h, ih]
    | some c =>
      rw [List.filter_cons_of_pos (by simp [escTakes, h]), List.filterMap_cons_some h, List.flatMap_cons, List.flatten_cons, ih]
      simp [escEnc, h]

/-- The rows belong to the set: without the second backslash they are its codes. -/
def Escapes (x : Charset) : Prop := ∀ r ∈ rows, x.char (r.1 * 0x100 + 0x5C) = some r.2

/-- What is written stands for the characters. -/
theorem texts_of {x : Charset} (hx : x.fine = true) (he : Escapes x) : ∀ (cps : List Nat),
    (∀ cp ∈ cps, (∃ r ∈ rows, r.2 = cp) ∨ ∃ c, x.code cp = some c ∧ x.char c = some cp) → Text x (cps.filterMap (written x)).flatten cps
  | [], _ => .nil
  | cp :: cps, h => by
    have ih := texts_of hx he cps fun y hy => h y (by simp [hy])
    rcases find_row (cp := cp) with ⟨r, hr, rfl, hw⟩ | ⟨hw, hn⟩
    · have e : written x r.2 = some [r.1, 0x5C, 0x5C] := by unfold written; rw [hw]
      rw [List.filterMap_cons_some e]
      exact .escaped hr ih
    · rcases h cp (by simp) with ⟨r, hr, k⟩ | ⟨c, k1, k2⟩
      · exact absurd k (hn r hr)
      · have e : written x cp = some (beBytes c) := by unfold written; rw [hw, k1]; rfl
        rw [List.filterMap_cons_some e, List.flatten_cons]
        refine .code k2 ?_ ih
        rintro r hr ⟨t, ht⟩
        have hb := row_ok hr
        have hc : c < 0x10000 ∧ (0x80 ≤ c ∨ c < 0x80) := by
          refine ⟨?_, by omega⟩
          unfold Charset.char at k2
          split at k2
          · omega
          · exact ((Charset.fine_iff hx).codes _ (Chart.find_mem k2)).2.1
        rcases (code_bytes hc.1).2 with ⟨g1, g2⟩ | ⟨g1, g2⟩
        · rw [g2] at ht
          simp only [List.cons_append, List.nil_append, List.cons.injEq] at ht
          have hcc := ht.1
          subst hcc
          exact absurd k2 (by
            intro k2
            have := he r hr
            have hm := Chart.find_mem (t := x.reads) (n := r.1) (v := cp) (by
              unfold Charset.char at k2
              rwa [if_neg (by omega)] at k2)
            have hm' := Chart.find_mem (t := x.reads) (n := r.1 * 0x100 + 0x5C) (v := r.2) (by
              unfold Charset.char at this
              rwa [if_neg (by omega)] at this)
            have := (Charset.fine_iff hx).free _ hm' _ hm (by simp only; omega) (by simp only; omega)
            simp only at this
            omega)
        · rw [g2] at ht
          simp only [List.cons_append, List.nil_append, List.cons.injEq] at ht
          have hcc : c = r.1 * 0x100 + 0x5C := by omega
          rw [hcc, he r hr, Option.some.injEq] at k2
          exact hn r hr k2

end Esc

open Verif.Spec.Big5Esc (Text written)
open Verif.Big5Esc (rows)
open Esc

/-- C97, reading.  `BIG5-5C,X:b`, with `b` any encoding of C63: a text in which backslashes behind characters of the table are doubled, or not, comes out as its characters. -/
theorem C97_reads {st : Nat → Static π} {ip : Nat → Nat → π → π} {ins : Ins π} {x : Charset} {b : Target} (hx : x.fine = true) (hh : x.high = true)
    (hn : ins.phasen = 2) (ha : ReadsEsc (st 1) x) (hb : b.Is (st 2)) (T cps : List Nat) (hT : Text x T cps)
    (as : List Arg) (l : Arg) (h1 : ∀ x ∈ as, x.flush = false) (h2 : l.flush = true) (h3 : ∀ x ∈ as ++ [l], x.mode ≠ .null)
    (h4 : ((as ++ [l]).filterMap (fun x => x.input)).flatten = T) :
    ∃ ds ins', Session st (ins.init st ip) (as ++ [l]) ds ins' ∧
      (ds.map (fun d => d.bytes)).flatten ++ ins'.pending.flatten = (cps.filter b.takes).flatMap b.enc ∧
      ins'.ierr = ins.ierr ∧ ins'.oerr = ins.oerr + (cps.filter fun cp => !b.takes cp).length := by
  obtain ⟨ds, ins', k1, k2, k3, k4⟩ := C63_reads (mid := []) hn _ _ (esc_readsAs hx hh ha _ hT) hb (fun k h => absurd h (by simp)) (by simp)
    (text_bytes hx hT).2 trivial rfl as l h1 h2 h3 h4
  exact ⟨ds, ins', k1, k2, k3, k4⟩

/-- C97, writing.  `a:BIG5-5C,X`. -/
theorem C97_writes {st : Nat → Static π} {ip : Nat → Nat → π → π} {ins : Ins π} {x : Charset} {a : Source} (hx : x.fine = true)
    (hn : ins.phasen = 2) (ha : a.Is (st 1) (initPriv st ip ins 1)) (hb : WritesEsc (st 2) x) (cps : List Nat) (hcps : ∀ cp ∈ cps, a.Has cp ∧ Scalar cp)
    (as : List Arg) (l : Arg) (h1 : ∀ x ∈ as, x.flush = false) (h2 : l.flush = true) (h3 : ∀ x ∈ as ++ [l], x.mode ≠ .null)
    (h4 : ((as ++ [l]).filterMap (fun x => x.input)).flatten = cps.flatMap a.enc) :
    ∃ ds ins', Session st (ins.init st ip) (as ++ [l]) ds ins' ∧
      (ds.map (fun d => d.bytes)).flatten ++ ins'.pending.flatten = (cps.filterMap (written x)).flatten ∧
      ins'.ierr = ins.ierr ∧ ins'.oerr = ins.oerr + (cps.filter fun cp => (written x cp).isNone).length := by
  obtain ⟨ds, ins', k1, k2, k3, k4⟩ := C63_transcode hn ha (esc_target hx hb) cps hcps as l h1 h2 h3 h4
  refine ⟨ds, ins', k1, k2.trans (written_flat x cps), k3, k4.trans ?_⟩
  congr 3
  funext cp
  simp [Target.takes, escTakes]

/-- C97, there and back.  A text of characters of the table and others that the set writes as codes it reads as the same characters, written by one instance and read by
another, is the text it was. -/
theorem C97_round_trip {st st' : Nat → Static π} {ip ip' : Nat → Nat → π → π} {ins ins0 : Ins π} {x : Charset} {a : Source} {c : Target}
    (hx : x.fine = true) (hh : x.high = true) (he : Escapes x)
    (hn : ins.phasen = 2) (ha : a.Is (st 1) (initPriv st ip ins 1)) (hb : WritesEsc (st 2) x)
    (hn' : ins0.phasen = 2) (hb' : ReadsEsc (st' 1) x) (hc : c.Is (st' 2)) (cps : List Nat)
    (hcps : ∀ cp ∈ cps, Scalar cp ∧ a.Has cp ∧ c.takes cp = true ∧ ((∃ r ∈ rows, r.2 = cp) ∨ ∃ k, x.code cp = some k ∧ x.char k = some cp))
    (as : List Arg) (l : Arg) (h1 : ∀ x ∈ as, x.flush = false) (h2 : l.flush = true) (h3 : ∀ x ∈ as ++ [l], x.mode ≠ .null)
    (h4 : ((as ++ [l]).filterMap (fun x => x.input)).flatten = cps.flatMap a.enc) :
    ∃ ds ins', Session st (ins.init st ip) (as ++ [l]) ds ins' ∧ ins'.ierr = ins.ierr ∧ ins'.oerr = ins.oerr ∧
      ∀ (as' : List Arg) (l' : Arg), (∀ x ∈ as', x.flush = false) → l'.flush = true → (∀ x ∈ as' ++ [l'], x.mode ≠ .null) →
        ((as' ++ [l']).filterMap (fun x => x.input)).flatten = (ds.map (fun d => d.bytes)).flatten ++ ins'.pending.flatten →
        ∃ ds' ins'', Session st' (ins0.init st' ip') (as' ++ [l']) ds' ins'' ∧ ins''.ierr = ins0.ierr ∧ ins''.oerr = ins0.oerr ∧
          (ds'.map (fun d => d.bytes)).flatten ++ ins''.pending.flatten = cps.flatMap c.enc := by
  obtain ⟨ds, ins', k1, k2, k3, k4⟩ := C97_writes hx hn ha hb cps (fun cp h => ⟨(hcps cp h).2.1, (hcps cp h).1⟩) as l h1 h2 h3 h4
  have hnone : (cps.filter fun cp => (written x cp).isNone) = [] := by
    rw [List.filter_eq_nil_iff]
    intro cp h
    unfold written
    rcases find_row (cp := cp) with ⟨r, hr, rfl, hw⟩ | ⟨hw, hno⟩
    · rw [hw]; simp
    · rw [hw]
      rcases (hcps cp h).2.2.2 with ⟨r, hr, k⟩ | ⟨k, e, _⟩
      · exact absurd k (hno r hr)
      · simp [e]
  rw [hnone] at k4
  refine ⟨ds, ins', k1, k3, k4, ?_⟩
  intro as' l' g1 g2 g3 g4
  rw [k2] at g4
  obtain ⟨ds', ins'', m1, m2, m3, m4⟩ := C97_reads (b := c) (ip := ip') hx hh hn' hb' hc _ cps (texts_of hx he cps fun cp h => (hcps cp h).2.2.2) as' l' g1 g2 g3 g4
  have hall : cps.filter c.takes = cps ∧ (cps.filter fun cp => !c.takes cp) = [] := by
    refine ⟨List.filter_eq_self.2 fun cp h => (hcps cp h).2.2.1, ?_⟩
    rw [List.filter_eq_nil_iff]
    intro cp h
    simp [(hcps cp h).2.2.1]
  rw [hall.1] at m2
  rw [hall.2] at m4
  exact ⟨ds', ins'', m1, m3, m4, m2⟩

/-- C97, the shipped tables: the rows of BIG5-5C are codes of BIG5 with a second backslash. -/
theorem C97_big5 : Escapes Charsets.big5 := by
  have h : (fun t : CTree => rows.all fun r => Nat.beq (t.get (r.1 * 0x100 + 0x5C)) r.2) (CTree.build 12 Charsets.big5.reads) = true := by decide +kernel
  intro r hr
  have h1 := Nat.eq_of_beq_eq_true (List.all_eq_true.1 h r hr)
  obtain ⟨b1, b2, b3, _⟩ := row_ok hr
  have := Chart.mem_find (Charset.fine_iff big5_fine.1).reads (build_mem (by omega) h1)
  unfold Charset.char
  rw [if_neg (by omega), this]

/-! ### A conversion -/

/-- `BIG5-5C,BIG5:BIG5-5C,BIG5` -/
def escConv (k : Nat) : Static Unit :=
  if k = 1 then ⟨.from_, fun j => if j = 0 then trieCodec Verif.Big5Esc.fromRules else if j = 1 then trieCodec Ascii.fromRules
    else Verif.MkTable.compiled _ (Verif.MkTable.lines Charsets.big5.fromRules), 2⟩
  else ⟨.to_, fun j => if j = 0 then trieCodec (symbolRules Verif.Big5Esc.toRules) else if j = 1 then Verif.MkTable.compiled _ (Verif.MkTable.lines (symbolRules Charsets.big5.toRules))
    else trieCodec (symbolRules Ascii.toRules), 2⟩

theorem escConv_reads : ReadsEsc (escConv 1) Charsets.big5 := by
  refine ⟨rfl, rfl, represents_trie _ ?_, trieAscii, (C76_compiled big5_fine.1 big5_fine.2.2).1⟩
  intro r hr
  obtain ⟨a, _, rfl⟩ := esc_mem hr
  simp

theorem escConv_writes : WritesEsc (escConv 2) Charsets.big5 := by
  refine ⟨rfl, rfl, represents_trie _ ?_, (C76_compiled big5_fine.1 big5_fine.2.2).2, trieToAscii⟩
  intro r hr
  obtain ⟨q, hq, rfl⟩ := List.mem_map.1 hr
  obtain ⟨e, _, rfl⟩ := Esc.to_mem hq
  simp [symbols, uniDatum]

-- Two characters whose second byte is a backslash, the first with a second one behind it, cut there; both come out with it.
example : ∃ ds ins', Session escConv
      (({ ph := fun _ => { priv := fun _ => () }, phasen := 2 } : Ins Unit).init escConv (fun _ _ t => t))
      ([⟨some [0xA5, 0x5C], false, .file⟩] ++ [⟨some [0x5C, 0xAF, 0xE0, 0xA5, 0x5C], true, .file⟩]) ds ins' ∧
    (ds.map (fun d => d.bytes)).flatten ++ ins'.pending.flatten = [0xA5, 0x5C, 0x5C, 0xAF, 0xE0, 0xA5, 0x5C, 0x5C] ∧ ins'.ierr = 0 ∧ ins'.oerr = 0 := by
  have e1 : beBytes 0xAFE0 = [0xAF, 0xE0] := be2 (by decide) (by decide)
  have e2 : beBytes 0xA55C = [0xA5, 0x5C] := be2 (by decide) (by decide)
  have hc : Charsets.big5.char 0xAFE0 = some 0x80FD ∧ Charsets.big5.char 0xA55C = some 0x529F ∧ Charsets.big5.code 0x80FD = some 0xAFE0 := by decide +kernel
  have ht : Text Charsets.big5 (0xA5 :: 0x5C :: 0x5C :: (beBytes 0xAFE0 ++ (beBytes 0xA55C ++ []))) [0x529F, 0x80FD, 0x529F] := by
    refine .escaped (r := (0xA5, 0x529F)) (by decide +kernel) (.code hc.1 ?_ (.code hc.2.1 ?_ .nil))
    · rintro r hr ⟨t, h⟩
      rw [e1] at h
      simp at h
    · rintro r hr ⟨t, h⟩
      rw [e2] at h
      simp at h
  rw [e1, e2] at ht
  obtain ⟨ds, ins', k1, k2, k3, k4⟩ := C97_reads (st := escConv) (ip := fun _ _ t => t) (ins := { ph := fun _ => { priv := fun _ => () }, phasen := 2 })
    big5_fine.1 big5_fine.2.1 rfl escConv_reads (esc_target big5_fine.1 escConv_writes) _ _ ht
    [⟨some [0xA5, 0x5C], false, .file⟩] ⟨some [0x5C, 0xAF, 0xE0, 0xA5, 0x5C], true, .file⟩ (by simp) rfl (by simp) rfl
  have w1 : written Charsets.big5 0x529F = some [0xA5, 0x5C, 0x5C] := by decide +kernel
  have w2 : written Charsets.big5 0x80FD = some [0xAF, 0xE0] := by
    have : rows.find? (fun r => Nat.beq r.2 0x80FD) = none := by decide +kernel
    unfold written
    rw [this, hc.2.2, Option.map_some, e1]
  refine ⟨ds, ins', k1, k2.trans ?_, k3, k4.trans ?_⟩
  · show (List.filter (escTakes _) _).flatMap (escEnc _) = _
    rw [written_flat, List.filterMap_cons_some w1, List.filterMap_cons_some w2, List.filterMap_cons_some w1]
    rfl
  · have t1 : escTakes Charsets.big5 0x529F = true := by unfold escTakes; rw [w1]; rfl
    have t2 : escTakes Charsets.big5 0x80FD = true := by unfold escTakes; rw [w2]; rfl
    simp only [Target.takes]
    rw [List.filter_cons_of_neg (by rw [t1]; decide), List.filter_cons_of_neg (by rw [t2]; decide), List.filter_cons_of_neg (by rw [t1]; decide)]
    rfl

end Verif.Props
