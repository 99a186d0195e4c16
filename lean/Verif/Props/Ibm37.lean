import Verif.Model.Ibm37
import Verif.Spec.Cp037
import Verif.Props.Bytes
/-
C104: IBM-37.
-/
namespace Verif.Props
open Verif.Spec
open Verif.Engine hiding Datum step

variable {π : Type}

namespace Ibm37
open Verif.Ibm37

/-- The character a byte is read as: that of the first line for the byte. -/
def char (b : Nat) : Option Nat := (reads.find? fun r => r.1 == b).map Prod.snd

/-- The byte a character is written as. -/
def code (cp : Nat) : Option Nat := (writes.find? fun r => r.1 == cp).map Prod.snd

/-- The phase reads IBM-37. -/
structure Reads (s : Static π) : Prop where
  isFrom : s.type = .from_
  one : s.codecn = 0
  table : Represents (s.codecs 0) fromRules

/-- The phase writes IBM-37. -/
structure Writes (s : Static π) : Prop where
  isTo : s.type = .to_
  one : s.codecn = 0
  table : Represents (s.codecs 0) (symbolRules toRules)

set_option maxRecDepth 100000 in
theorem rows_ok : (reads.all (fun r => Nat.ble 1 r.1 && Nat.ble r.1 255 && Nat.ble 1 r.2 && Nat.ble r.2 0xFFFF && (Nat.ble r.2 0xD7FF || Nat.ble 0xE000 r.2)) &&
    writes.all (fun r => Nat.ble 1 r.2 && Nat.ble r.2 255 && Nat.ble 1 r.1 && Nat.ble r.1 0xFFFF && (Nat.ble r.1 0xD7FF || Nat.ble 0xE000 r.1))) = true := by decide +kernel

theorem reads_ok {r : Nat × Nat} (h : r ∈ reads) : 1 ≤ r.1 ∧ r.1 ≤ 255 ∧ r.2 ≤ 0xFFFF ∧ Scalar r.2 := by
  have := rows_ok
  simp only [Bool.and_eq_true, List.all_eq_true, Nat.ble_eq, Bool.or_eq_true] at this
  have := this.1 r h
  unfold Scalar Surrogate
  omega

theorem writes_ok {r : Nat × Nat} (h : r ∈ writes) : 1 ≤ r.2 ∧ r.2 ≤ 255 ∧ r.1 ≤ 0xFFFF ∧ Scalar r.1 := by
  have := rows_ok
  simp only [Bool.and_eq_true, List.all_eq_true, Nat.ble_eq, Bool.or_eq_true] at this
  have := this.2 r h
  unfold Scalar Surrogate
  omega

theorem from_lookup (b : Nat) : lookup fromRules [b] = (char b).map fun u => [uniDatum u] := by
  unfold fromRules char
  induction reads with
  | nil => rfl
  | cons r R ih =>
    rw [List.map_cons, lookup, List.find?_cons]
    by_cases e : r.1 = b
    · simp [e]
    · rw [if_neg (by simpa using e), show (r.1 == b) = false by simpa using e]
      exact ih

theorem to_lookup {cp : Nat} (hc : cp ≤ 0x10FFFF) : lookup toRules [uniDatum cp] = (code cp).map fun b => [[b]] := by
  unfold toRules code
  have : ∀ r ∈ writes, r.1 ≤ 0xFFFF := fun r h => (writes_ok h).2.2.1
  revert this
  generalize writes = W
  intro hw
  induction W with
  | nil => rfl
  | cons r R ih =>
    rw [List.map_cons, lookup, List.find?_cons]
    have h1 := hw r (by simp)
    by_cases e : r.1 = cp
    · simp [e]
    · rw [if_neg ?_, show (r.1 == cp) = false by simpa using e]
      · exact ih fun r h => hw r (by simp [h])
      · intro h
        simp only [List.cons.injEq, and_true] at h
        exact e (uni_inj (by omega) (by omega) h)

theorem char_mem {b u : Nat} (h : char b = some u) : (b, u) ∈ reads := by
  unfold char at h
  obtain ⟨r, h1, rfl⟩ := Option.map_eq_some_iff.1 h
  have := List.find?_some (p := fun r : Nat × Nat => r.1 == b) h1
  simp only [beq_iff_eq] at this
  exact this ▸ List.mem_of_find?_eq_some h1

theorem code_mem {b u : Nat} (h : code u = some b) : (u, b) ∈ writes := by
  unfold code at h
  obtain ⟨r, h1, rfl⟩ := Option.map_eq_some_iff.1 h
  have := List.find?_some (p := fun r : Nat × Nat => r.1 == u) h1
  simp only [beq_iff_eq] at this
  exact this ▸ List.mem_of_find?_eq_some h1

/-- Every byte but 0 is read as the character of the code page 037, but for two; every character of the code page is written as its byte. -/
theorem page : ((List.range 256).all fun b => b == 0 ||
    (char b == (if b = 0xAC then some 0x110 else if b = 0xBC then some 0x203E else cp037[b]?) && (cp037[b]?).bind code == some b &&
     (char b).bind code == some b)) = true := by decide +kernel

theorem page_at {b : Nat} (h1 : 1 ≤ b) (h2 : b ≤ 255) :
    char b = (if b = 0xAC then some 0x110 else if b = 0xBC then some 0x203E else cp037[b]?) ∧ (cp037[b]?).bind code = some b ∧ (char b).bind code = some b := by
  have := List.all_eq_true.1 page b (List.mem_range.2 (by omega))
  simp only [Bool.or_eq_true, Bool.and_eq_true, beq_iff_eq] at this
  rcases this with h | ⟨⟨h, h'⟩, h''⟩
  · omega
  · exact ⟨h, h', h''⟩

/-- What is written is read back, but for the fullwidth letters and two more. -/
theorem back : (writes.all fun r => char r.2 == some (if Nat.ble 0xFF01 r.1 && Nat.ble r.1 0xFF5E then r.1 - 0xFEE0 else
    if r.1 = 0xD0 then 0x110 else if r.1 = 0xAF then 0x203E else r.1)) = true := by decide +kernel

theorem lengths : reads.length ≤ 60000 ∧ writes.length ≤ 60000 := by decide +kernel

theorem from_free : PrefixFree fromRules := Keep.oneLength_prefixFree (k := 1) (by
  intro r hr
  obtain ⟨a, _, rfl⟩ := List.mem_map.1 hr
  rfl)

end Ibm37
open Ibm37 Keep
open Verif.Ibm37 (fromRules toRules)

/-- The bytes of a text of which every character has a byte. -/
def ibmByte (cp : Nat) : List Nat := [(code cp).getD 0]

/-- C104.  The character a byte stands for is that of the code page, but for the two bytes AC and BC. -/
theorem C104_page_partial (b : Nat) (h : 1 ≤ b ∧ b ≤ 255) (h1 : b ≠ 0xAC) (h2 : b ≠ 0xBC) : char b = cp037[b]? ∧ (char b).isSome := by
  obtain ⟨k1, k2, _⟩ := page_at h.1 h.2
  rw [if_neg h1, if_neg h2] at k1
  refine ⟨k1, ?_⟩
  rw [k1]
  cases e : cp037[b]? with
  | none => rw [e] at k2; simp at k2
  | some u => rfl

/-- C104.  Each character of the code page but U+0000 is written as its byte. -/
theorem C104_written (b u : Nat) (h : 1 ≤ b) (hu : cp037[b]? = some u) : code u = some b := by
  have : b < 256 := by
    have := (List.getElem?_eq_some_iff.1 hu).1
    have e : cp037.length = 256 := by decide +kernel
    omega
  have := (page_at h (by omega)).2.1
  rw [hu] at this
  exact this

/-- C104 violated.  The bytes AC and BC, in the code page U+00D0 and U+00AF, are read as others. -/
theorem C104_page_violated : (cp037[0xAC]? = some 0xD0 ∧ char 0xAC = some 0x110) ∧ cp037[0xBC]? = some 0xAF ∧ char 0xBC = some 0x203E := by
  decide +kernel

/-- C104.  Bytes other than 0, cut in any way, are read as the characters of the table, whatever is behind. -/
theorem C104_reads {s : Static π} (h : Reads s) (p : Nat → π) {bs cps : List Nat} (hc : bs.map char = cps.map some) : ReadsAs s p bs cps := by
  have hp : Pieces (fun _ => fromRules) 0 bs (bs.zipWith (fun b u => ([b], uniDatum u)) cps) ∧ (bs.zipWith (fun b u => ([b], uniDatum u)) cps).map Prod.snd = textData cps ∧ IsBytes bs := by
    clear h
    induction bs generalizing cps with
    | nil =>
      cases cps with
      | nil => exact ⟨.nil, rfl, by intro b hb; simp at hb⟩
      | cons u cps => simp at hc
    | cons b bs ih =>
      cases cps with
      | nil => simp at hc
      | cons u cps =>
        simp only [List.map_cons, List.cons.injEq] at hc
        obtain ⟨i1, i2, i3⟩ := ih hc.2
        refine ⟨?_, ?_, ?_⟩
        · exact .cons (q := [b]) (s := bs) (Nat.le_refl _) (by simp) (by rw [from_lookup, hc.1]; rfl) (fun i hi => absurd hi (by omega)) i1
        · simp only [List.zipWith_cons_cons, List.map_cons, textData]
          rw [i2]; rfl
        · intro x hx
          rcases List.mem_cons.1 hx with rfl | hx
          · have := (reads_ok (char_mem hc.1)).2.1
            simp only at this
            omega
          · exact i3 x hx
  obtain ⟨h1, h2, h3⟩ := hp
  obtain ⟨D, d1, d2⟩ := tables_pieces (s := s) (Rs := fun _ => fromRules) h.isFrom (by
    intro j hj
    rw [h.one] at hj
    obtain rfl : j = 0 := by omega
    refine ⟨h.table, from_free, ?_⟩
    intro r hr
    obtain ⟨a, _, rfl⟩ := List.mem_map.1 hr
    refine ⟨by simp, ?_⟩
    intro x hx
    simp only [List.mem_singleton] at hx
    exact hx ▸ uniDatum_bytes _) p (by rw [h.one]; exact h1)
  rw [h2] at d2
  exact ⟨h3, D, d1, d2⟩

/-- Every list of bytes other than 0 is a text. -/
theorem chars_exist {bs : List Nat} (h : ∀ b ∈ bs, 1 ≤ b ∧ b ≤ 255) : ∃ cps : List Nat, bs.map char = cps.map some ∧ (∀ cp ∈ cps, Scalar cp ∧ (code cp).isSome) ∧
    cps.flatMap ibmByte = bs := by
  induction bs with
  | nil => exact ⟨[], rfl, by simp, rfl⟩
  | cons b bs ih =>
    obtain ⟨cps, i1, i2, i3⟩ := ih fun b hb => h b (by simp [hb])
    obtain ⟨hb1, hb2⟩ := h b (by simp)
    have k := (page_at hb1 hb2).2.2
    obtain ⟨u, e1, e2⟩ := Option.bind_eq_some_iff.1 k
    refine ⟨u :: cps, by rw [List.map_cons, List.map_cons, e1, i1], ?_, ?_⟩
    · intro cp hcp
      rcases List.mem_cons.1 hcp with rfl | hcp
      · exact ⟨(reads_ok (char_mem e1)).2.2.2, by rw [e2]; rfl⟩
      · exact i2 cp hcp
    · rw [List.flatMap_cons, i3, ibmByte, e2]; rfl

/-- C104.  What C63 and all that rests on it ask of the phase that writes. -/
theorem C104_target {s : Static π} (h : Writes s) : Target.Is s (.table ibmByte fun cp => (code cp).isSome) := by
  refine .tables (fun _ => toRules) _ _ h.isTo ?_ ?_
  · intro j hj
    rw [h.one] at hj
    obtain rfl : j = 0 := by omega
    refine ⟨h.table, ?_, ?_⟩
    · intro r hr
      obtain ⟨a, ha, rfl⟩ := List.mem_map.1 hr
      have := writes_ok ha
      refine ⟨by simp, ?_, by simp, ?_⟩
      · intro d hd
        simp only [List.mem_singleton] at hd
        subst hd
        exact ⟨by simp [uniDatum], uniDatum_bytes _⟩
      · intro d hd
        simp only [List.mem_singleton] at hd
        subst hd
        refine ⟨by simp, ?_⟩
        intro x hx
        simp only [List.mem_singleton] at hx
        omega
    · intro r hr
      obtain ⟨a, ha, rfl⟩ := List.mem_map.1 hr
      simp
  · intro cp hcp
    rw [h.one]
    have := to_lookup hcp.2.1
    simp only [List.range_one, List.findSome?_cons, this, List.findSome?_nil]
    cases e : code cp with
    | none => rfl
    | some b => simp [ibmByte, e]

/-- C104.  And of the phase that reads, for the characters whose byte is read back. -/
theorem C104_source {s : Static π} (h : Reads s) (p : Nat → π) : Source.Is s p (.table ibmByte fun cp => (code cp).bind char = some cp) := by
  refine .table fromRules _ _ h.isFrom h.one h.table from_free ?_ ?_
  · intro r hr
    obtain ⟨a, _, rfl⟩ := List.mem_map.1 hr
    intro x hx
    simp only [List.mem_singleton] at hx
    exact hx ▸ uniDatum_bytes _
  · intro cp hcp
    obtain ⟨b, e1, e2⟩ := Option.bind_eq_some_iff.1 hcp
    have := (writes_ok (code_mem e1)).2.1
    simp only [ibmByte, e1, Option.getD_some]
    refine ⟨by simp, ?_, by rw [from_lookup, e2]; rfl⟩
    intro x hx
    simp only [List.mem_singleton] at hx
    simp only at this
    omega

/-- C104.  `IBM-37:B` for any target B: bytes other than 0, cut in any way, come out as their characters in B. -/
theorem C104_decode {st : Nat → Static π} {ip : Nat → Nat → π → π} {ins : Ins π} {b : Target} (hn : ins.phasen = 2)
    (ha : Reads (st 1)) (hb : b.Is (st 2)) (bs cps : List Nat) (hbs : bs.map char = cps.map some)
    (as : List Arg) (l : Arg) (h1 : ∀ y ∈ as, y.flush = false) (h2 : l.flush = true) (h3 : ∀ y ∈ as ++ [l], y.mode ≠ .null)
    (h4 : ((as ++ [l]).filterMap (fun y => y.input)).flatten = bs) :
    ∃ ds ins', Session st (ins.init st ip) (as ++ [l]) ds ins' ∧
      (ds.map (fun d => d.bytes)).flatten ++ ins'.pending.flatten = (cps.filter b.takes).flatMap b.enc ∧
      ins'.ierr = ins.ierr ∧ ins'.oerr = ins.oerr + (cps.filter fun cp => !b.takes cp).length := by
  have hs : ∀ cp ∈ cps, Scalar cp := by
    intro cp hcp
    have : some cp ∈ bs.map char := by rw [hbs]; exact List.mem_map_of_mem hcp
    obtain ⟨x, _, e⟩ := List.mem_map.1 this
    exact (reads_ok (char_mem e)).2.2.2
  obtain ⟨ds, ins', k1, k2, k3, k4⟩ := C63_reads (mid := []) hn cps cps (C104_reads ha _ hbs) hb (fun k h => absurd h (by simp)) (by simp) hs
    trivial rfl as l h1 h2 h3 h4
  exact ⟨ds, ins', k1, k2, k3, k4⟩

/-- C104.  `IBM-37:IBM-37`: every sequence of bytes other than 0 comes out unchanged, without errors (although some bytes have two characters). -/
theorem C104_bytes {st : Nat → Static π} {ip : Nat → Nat → π → π} {ins : Ins π} (hn : ins.phasen = 2)
    (ha : Reads (st 1)) (hb : Writes (st 2)) (bs : List Nat) (hbs : ∀ b ∈ bs, 1 ≤ b ∧ b ≤ 255)
    (as : List Arg) (l : Arg) (h1 : ∀ y ∈ as, y.flush = false) (h2 : l.flush = true) (h3 : ∀ y ∈ as ++ [l], y.mode ≠ .null)
    (h4 : ((as ++ [l]).filterMap (fun y => y.input)).flatten = bs) :
    ∃ ds ins', Session st (ins.init st ip) (as ++ [l]) ds ins' ∧
      (ds.map (fun d => d.bytes)).flatten ++ ins'.pending.flatten = bs ∧ ins'.ierr = ins.ierr ∧ ins'.oerr = ins.oerr := by
  obtain ⟨cps, c1, c2, c3⟩ := chars_exist hbs
  obtain ⟨ds, ins', k1, k2, k3, k4⟩ := C104_decode hn ha (C104_target hb) bs cps c1 as l h1 h2 h3 h4
  have f1 : cps.filter (Target.table ibmByte fun cp => (code cp).isSome).takes = cps := List.filter_eq_self.2 fun cp hcp => (c2 cp hcp).2
  have f2 : (cps.filter fun cp => !(Target.table ibmByte fun cp => (code cp).isSome).takes cp).length = 0 := by
    rw [List.length_eq_zero_iff, List.filter_eq_nil_iff]
    intro cp hcp
    simp only [Target.takes, (c2 cp hcp).2]
    decide
  refine ⟨ds, ins', k1, ?_, k3, by rw [k4, f2]; rfl⟩
  rw [k2, f1]
  exact c3

/-- C104.  `A:IBM-37` for any source A: each character of the table comes out as its byte; the others are dropped and counted. -/
theorem C104_encode {st : Nat → Static π} {ip : Nat → Nat → π → π} {ins : Ins π} {a : Source} (hn : ins.phasen = 2)
    (ha : a.Is (st 1) (initPriv st ip ins 1)) (hb : Writes (st 2)) (cps : List Nat) (hcps : ∀ cp ∈ cps, a.Has cp ∧ Scalar cp)
    (as : List Arg) (l : Arg) (h1 : ∀ y ∈ as, y.flush = false) (h2 : l.flush = true) (h3 : ∀ y ∈ as ++ [l], y.mode ≠ .null)
    (h4 : ((as ++ [l]).filterMap (fun y => y.input)).flatten = cps.flatMap a.enc) :
    ∃ ds ins', Session st (ins.init st ip) (as ++ [l]) ds ins' ∧
      (ds.map (fun d => d.bytes)).flatten ++ ins'.pending.flatten = cps.filterMap code ∧
      ins'.ierr = ins.ierr ∧ ins'.oerr = ins.oerr + (cps.filter fun cp => (code cp).isNone).length := by
  obtain ⟨ds, ins', k1, k2, k3, k4⟩ := C63_transcode hn ha (C104_target hb) cps hcps as l h1 h2 h3 h4
  refine ⟨ds, ins', k1, ?_, k3, ?_⟩
  · rw [k2]
    clear k1 k2 k3 k4 h4 hcps
    induction cps with
    | nil => rfl
    | cons cp cps ih =>
      simp only [Target.takes, Target.enc] at ih ⊢
      cases e : code cp with
      | none => rw [List.filter_cons_of_neg (by simp [e]), List.filterMap_cons_none e]; exact ih
      | some b => rw [List.filter_cons_of_pos (by simp [e]), List.filterMap_cons_some e, List.flatMap_cons, ih, ibmByte, e]; rfl
  · rw [k4]
    congr 2
    refine List.filter_congr ?_
    intro cp _
    simp only [Target.takes]
    cases code cp <;> rfl

/-- C104.  Text of the code page without U+00AF and U+00D0, converted to IBM-37 and what comes out, cut anew, converted back, comes back. -/
theorem C104_round_trip_partial {st st' : Nat → Static π} {ip ip' : Nat → Nat → π → π} {ins ins0 : Ins π} {a : Source} {c : Target}
    (hn : ins.phasen = 2) (ha : a.Is (st 1) (initPriv st ip ins 1)) (hb : Writes (st 2))
    (hn' : ins0.phasen = 2) (hb' : Reads (st' 1)) (hc : c.Is (st' 2))
    (cps : List Nat) (hcps : ∀ cp ∈ cps, a.Has cp ∧ c.takes cp = true ∧ cp ∈ cp037 ∧ cp ≠ 0 ∧ cp ≠ 0xAF ∧ cp ≠ 0xD0)
    (as : List Arg) (l : Arg) (h1 : ∀ x ∈ as, x.flush = false) (h2 : l.flush = true) (h3 : ∀ x ∈ as ++ [l], x.mode ≠ .null)
    (h4 : ((as ++ [l]).filterMap (fun x => x.input)).flatten = cps.flatMap a.enc) :
    ∃ ds ins', Session st (ins.init st ip) (as ++ [l]) ds ins' ∧ ins'.ierr = ins.ierr ∧ ins'.oerr = ins.oerr ∧
      ∀ (as' : List Arg) (l' : Arg), (∀ x ∈ as', x.flush = false) → l'.flush = true → (∀ x ∈ as' ++ [l'], x.mode ≠ .null) →
        ((as' ++ [l']).filterMap (fun x => x.input)).flatten = (ds.map (fun d => d.bytes)).flatten ++ ins'.pending.flatten →
        ∃ ds' ins'', Session st' (ins0.init st' ip') (as' ++ [l']) ds' ins'' ∧ ins''.ierr = ins0.ierr ∧ ins''.oerr = ins0.oerr ∧
          (ds'.map (fun d => d.bytes)).flatten ++ ins''.pending.flatten = cps.flatMap c.enc := by
  refine C63_round_trip hn ha (C104_target hb) hn' (C104_source hb' _) hc rfl cps ?_ as l h1 h2 h3 h4
  intro cp hcp
  obtain ⟨m1, m2, m3, m4, m5, m6⟩ := hcps cp hcp
  obtain ⟨b, hb1, hb2⟩ := List.getElem_of_mem m3
  have hl : cp037.length = 256 := by decide +kernel
  have e : cp037[b]? = some cp := by rw [List.getElem?_eq_getElem hb1, hb2]
  have h0 : b ≠ 0 := by
    rintro rfl
    exact m4 hb2.symm
  have hA : b ≠ 0xAC := by
    rintro rfl
    exact m6 hb2.symm
  have hB : b ≠ 0xBC := by
    rintro rfl
    exact m5 hb2.symm
  have hk := (C104_page_partial b ⟨by omega, by omega⟩ hA hB).1
  have hw := C104_written b cp (by omega) e
  refine ⟨(writes_ok (code_mem hw)).2.2.2, m1, ?_, by simp [Target.takes, hw], m2⟩
  show (code cp).bind char = some cp
  rw [hw, Option.bind_some, hk, e]

/-- C104 violated.  For these two it does not: U+00D0 is written as the byte AC, which is read as U+0110; U+00AF as BC, read as U+203E. -/
theorem C104_round_trip_violated : (code 0xD0).bind char = some 0x110 ∧ (code 0xAF).bind char = some 0x203E := by decide +kernel

/-- C104.  Every character that is written is read back, or is one of the fullwidth forms and read as the plain letter or sign, or one of the two. -/
theorem C104_back (cp b : Nat) (h : code cp = some b) : char b = some cp ∨ (0xFF01 ≤ cp ∧ cp ≤ 0xFF5E ∧ char b = some (cp - 0xFEE0)) ∨ cp = 0xD0 ∨ cp = 0xAF := by
  have := List.all_eq_true.1 back _ (code_mem h)
  simp only [beq_iff_eq, Bool.and_eq_true, Nat.ble_eq] at this
  split at this
  · rename_i hf
    exact .inr (.inl ⟨hf.1, hf.2, this⟩)
  · split at this
    · exact .inr (.inr (.inl (by assumption)))
    · split at this
      · exact .inr (.inr (.inr (by assumption)))
      · exact .inl this

/-- C104.  The compiled files make such phases. -/
theorem C104_compiled : Represents (Verif.MkTable.compiled π (Verif.MkTable.lines fromRules)) fromRules ∧
    Represents (Verif.MkTable.compiled π (Verif.MkTable.lines (symbolRules toRules))) (symbolRules toRules) := by
  constructor
  · refine compiled_short _ ?_ (by rw [fromRules, List.length_map]; exact lengths.1)
    intro r hr
    obtain ⟨a, ha, rfl⟩ := List.mem_map.1 hr
    obtain ⟨k1, k2, k3, k4⟩ := reads_ok ha
    refine ⟨⟨by simp, by simp, by intro c hc; simp only [List.mem_singleton] at hc; omega⟩, _, rfl, (uniDatum_ne _).1, scalar_length k4, uniDatum_bytes _⟩
  · refine compiled_short _ ?_ (by rw [symbolRules, List.length_map, toRules, List.length_map]; exact lengths.2)
    intro r hr
    obtain ⟨q, hq, rfl⟩ := List.mem_map.1 hr
    obtain ⟨a, ha, rfl⟩ := List.mem_map.1 hq
    obtain ⟨k1, k2, k3, k4⟩ := writes_ok ha
    exact ⟨⟨by simp [symbols, uniDatum], scalar_length k4, fun c hc => by have := uniDatum_bytes a.1 c hc; omega⟩,
      _, rfl, by simp, by simp, by intro x hx; simp only [List.mem_singleton] at hx; omega⟩

/-- The conversion `IBM-37:IBM-37` with compiled files. -/
def ibmConv (k : Nat) : Static Unit :=
  if k = 1 then ⟨.from_, fun _ => Verif.MkTable.compiled _ (Verif.MkTable.lines fromRules), 0⟩
  else ⟨.to_, fun _ => Verif.MkTable.compiled _ (Verif.MkTable.lines (symbolRules toRules)), 0⟩

-- "Hi!" and two bytes with two characters each.
example : ∃ ds ins', Session ibmConv (({ ph := fun _ => { priv := fun _ => () }, phasen := 2 } : Ins Unit).init ibmConv (fun _ _ t => t))
      ([⟨some [0xC8, 0x89], false, .file⟩] ++ [⟨some [0x5A, 0xAC, 0xBC], true, .file⟩]) ds ins' ∧
    (ds.map (fun d => d.bytes)).flatten ++ ins'.pending.flatten = [0xC8, 0x89, 0x5A, 0xAC, 0xBC] ∧ ins'.ierr = 0 ∧ ins'.oerr = 0 := by
  obtain ⟨ds, ins', k1, k2, k3, k4⟩ := C104_bytes (st := ibmConv) (ip := fun _ _ t => t)
    (ins := { ph := fun _ => { priv := fun _ => () }, phasen := 2 }) rfl ⟨rfl, rfl, C104_compiled.1⟩ ⟨rfl, rfl, C104_compiled.2⟩
    [0xC8, 0x89, 0x5A, 0xAC, 0xBC] (by decide) [⟨some [0xC8, 0x89], false, .file⟩] ⟨some [0x5A, 0xAC, 0xBC], true, .file⟩ (by simp) rfl (by simp) rfl
  exact ⟨ds, ins', k1, k2, k3, k4⟩

end Verif.Props
