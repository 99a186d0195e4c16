import Verif.Proofs.Charset
import Verif.Model.Charsets
import Verif.Props.Terminate
/-
C76: character sets given by tables: what is read, what is written, and that converting there and back changes nothing.
-/
namespace Verif.Props
open Verif.Spec
open Verif.Engine hiding Datum step

variable {π : Type}

/-- The orders in which /repo/modules/from/alias lists the tables for reading: `ASCII,_X`; `_X,ASCII,FALLBACK-UNICODE` (CP1251 and other CP125x);
`ASCII,_X,FALLBACK-UNICODE` (CP874). -/
def readOrders (x : Charset) : List (List (Rules Nat (List Datum))) :=
  [[Ascii.fromRules, x.fromRules], [x.fromRules, Ascii.fromRules, fallbackRules], [Ascii.fromRules, x.fromRules, fallbackRules]]

/-- The phase reads the character set: its codecs are the tables in one of these orders. -/
structure ReadsCharset (s : Static π) (x : Charset) : Prop where
  isFrom : s.type = .from_
  tables : ∃ Rs ∈ readOrders x, s.codecn + 1 = Rs.length ∧ ∀ j (h : j < Rs.length), Represents (s.codecs j) Rs[j]

/-- The phase writes the character set: its codecs are the tables `_X,ASCII` (/repo/modules/to/alias). -/
structure WritesCharset (s : Static π) (x : Charset) : Prop where
  isTo : s.type = .to_
  two : s.codecn = 1
  table : Represents (s.codecs 0) (symbolRules x.toRules)
  ascii : Represents (s.codecs 1) (symbolRules Ascii.toRules)

/-- Its encoding. -/
def charsetEnc (x : Charset) (cp : Nat) : List Nat := beBytes ((x.code cp).getD 0)
def charsetTakes (x : Charset) (cp : Nat) : Bool := (x.code cp).isSome

theorem high_head {x : Charset} (hx : x.Fine) (hh : x.high = true) {r : List Nat × List Datum} (hr : r ∈ x.fromRules) {b : Nat} (hb : b < 0x80) :
    ¬ [b] <+: r.1 := by
  obtain ⟨a, ha, rfl⟩ := List.mem_map.1 hr
  have h1 := high_pairs hh ha
  rintro ⟨t, ht⟩
  simp only at ht
  rcases (code_bytes (hx.codes a ha).2.1).2 with ⟨k1, k2⟩ | ⟨k1, k2⟩ <;> rw [k2] at ht <;> simp at ht <;> omega

theorem ascii_head {b : Nat} (hb : 0x80 ≤ b) {r : List Nat × List Datum} (hr : r ∈ Ascii.fromRules) : ¬ [b] <+: r.1 := by
  obtain ⟨c, _, _, rfl⟩ := fromAscii_mem hr
  rintro ⟨t, ht⟩
  simp at ht
  omega

theorem ascii_data : ∀ r ∈ Ascii.fromRules, r.2 ≠ [] ∧ ∀ d ∈ r.2, IsBytes d := by
  intro r hr
  obtain ⟨c, _, _, rfl⟩ := fromAscii_mem hr
  refine ⟨by simp, ?_⟩
  intro d hd b hb
  simp at hd
  subst hd
  simp at hb
  omega

/-- Every code is in one of the tables, and the tables before have nothing that begins with its first byte. -/
theorem charset_codes {s : Static π} {x : Charset} (hx : x.Fine) (hh : x.high = true) (h : ReadsCharset s x) :
    ∃ Rs : Nat → Rules Nat (List Datum),
      (∀ j, j ≤ s.codecn → Represents (s.codecs j) (Rs j) ∧ PrefixFree (Rs j) ∧ ∀ r ∈ Rs j, r.2 ≠ [] ∧ ∀ d ∈ r.2, IsBytes d) ∧
      ∀ c cp, x.char c = some cp → IsBytes (beBytes c) ∧ ∃ j b u, j ≤ s.codecn ∧ beBytes c = b :: u ∧ lookup (Rs j) (b :: u) = some [uniDatum cp] ∧
        ∀ i, i < j → ∀ r ∈ Rs i, ¬ [b] <+: r.1 := by
  obtain ⟨h1, Rs, hRs, h2, h3⟩ := h
  have asc : ∀ c, 1 ≤ c → c < 0x80 → beBytes c = [c] ∧ lookup Ascii.fromRules [c] = some [uniDatum c] := by
    intro c k1 k2
    refine ⟨be1 (by omega), ?_⟩
    rw [uniDatum, be1 (by omega)]
    exact (fromAscii_lookup _ _).2 ⟨c, k1, k2, rfl, rfl⟩
  have fr : ∀ c cp, x.reads.find c = some cp → IsBytes (beBytes c) ∧ ∃ b u, 0x80 ≤ b ∧ beBytes c = b :: u ∧ lookup x.fromRules (b :: u) = some [uniDatum cp] := by
    intro c cp hc
    have hm := Chart.find_mem hc
    obtain ⟨k1, k2, _⟩ := hx.codes _ hm
    have h1 := high_pairs hh hm
    have hl := fromRules_lookup hx k2
    rw [hc] at hl
    obtain ⟨m1, m2⟩ := code_bytes k2
    refine ⟨m1, ?_⟩
    rcases m2 with ⟨m0, m2⟩ | ⟨m0, m2⟩ <;> rw [m2] at hl
    · exact ⟨c, [], by simp only at m0; omega, m2, hl⟩
    · exact ⟨c / 0x100, [c % 0x100], by simp only at m0; omega, m2, hl⟩
  have byt : ∀ c, c < 0x80 → IsBytes [c] := by intro c h b hb; simp at hb; omega
  refine ⟨fun j => Rs.getD j [], ?_, ?_⟩
  · intro j hj
    have hj' : j < Rs.length := by omega
    have e : Rs.getD j [] = Rs[j] := by simp [List.getD, hj']
    simp only [e]
    refine ⟨h3 j hj', ?_⟩
    have hm : Rs[j] = Ascii.fromRules ∨ Rs[j] = x.fromRules ∨ Rs[j] = fallbackRules := by
      have hmem := List.getElem_mem hj'
      simp only [readOrders, List.mem_cons, List.not_mem_nil, or_false] at hRs
      rcases hRs with rfl | rfl | rfl <;> simp only [List.mem_cons, List.not_mem_nil, or_false] at hmem
      · rcases hmem with h | h
        · exact .inl h
        · exact .inr (.inl h)
      · rcases hmem with h | h | h
        · exact .inr (.inl h)
        · exact .inl h
        · exact .inr (.inr h)
      · rcases hmem with h | h | h
        · exact .inl h
        · exact .inr (.inl h)
        · exact .inr (.inr h)
    rcases hm with hm | hm | hm <;> rw [hm]
    · exact ⟨fromAscii_prefixFree, ascii_data⟩
    · exact ⟨fromRules_prefixFree hx, fromRules_data⟩
    · exact ⟨fallback_prefixFree, fallback_data⟩
  · intro c cp hc
    unfold Charset.char at hc
    simp only [readOrders, List.mem_cons, List.not_mem_nil, or_false] at hRs
    split at hc
    · rename_i hr
      simp only [Option.some.injEq] at hc
      subst hc
      obtain ⟨a1, a2⟩ := asc c hr.1 hr.2
      refine ⟨by rw [a1]; exact byt c hr.2, ?_⟩
      rcases hRs with rfl | rfl | rfl
      · exact ⟨0, c, [], by omega, a1, a2, fun i hi => absurd hi (by omega)⟩
      · refine ⟨1, c, [], by simp at h2; omega, a1, a2, ?_⟩
        intro i hi
        obtain rfl : i = 0 := by omega
        intro r hr'
        exact high_head hx hh hr' hr.2
      · exact ⟨0, c, [], by omega, a1, a2, fun i hi => absurd hi (by omega)⟩
    · obtain ⟨f1, b, u, f2, f3, f4⟩ := fr c cp hc
      refine ⟨f1, ?_⟩
      rcases hRs with rfl | rfl | rfl
      · refine ⟨1, b, u, by simp at h2; omega, f3, f4, ?_⟩
        intro i hi
        obtain rfl : i = 0 := by omega
        exact fun r hr => ascii_head f2 hr
      · exact ⟨0, b, u, by omega, f3, f4, fun i hi => absurd hi (by omega)⟩
      · refine ⟨1, b, u, by simp at h2; omega, f3, f4, ?_⟩
        intro i hi
        obtain rfl : i = 0 := by omega
        exact fun r hr => ascii_head f2 hr

/-- A text given as a sequence of codes is read as the characters they stand for. -/
theorem charset_readsAs {s : Static π} {x : Charset} (hx : x.fine = true) (hh : x.high = true) (h : ReadsCharset s x) (p : Nat → π)
    {cs cps : List Nat} (hc : cs.map x.char = cps.map some) : ReadsAs s p (codeBytes cs) cps := by
  obtain ⟨Rs, h1, h2⟩ := charset_codes (Charset.fine_iff hx) hh h
  obtain ⟨D, d1, _, d3⟩ := tables_real h.isFrom h1 p
  have hlen : cs.length = cps.length := by simpa using congrArg List.length hc
  have hz : ∀ c ∈ cs.zip cps, x.char c.1 = some c.2 := by
    intro c hm
    obtain ⟨i, hi, e⟩ := List.mem_iff_getElem.1 hm
    have hi1 : i < cs.length := by simp at hi; omega
    have hi2 : i < cps.length := by simp at hi; omega
    have := congrArg (fun l => l[i]?) hc
    simp [hi1, hi2] at this
    rw [List.getElem_zip] at e
    rw [← e]
    exact this
  have hb : ∀ c ∈ cs, IsBytes (beBytes c) := by
    intro c hm
    obtain ⟨i, hi, e⟩ := List.mem_iff_getElem.1 hm
    have hi' : i < (cs.zip cps).length := by simp; omega
    have h3 := hz (cs.zip cps)[i] (List.getElem_mem hi')
    rw [List.getElem_zip] at h3
    rw [← e]
    exact (h2 _ _ h3).1
  refine ⟨?_, D, d1, ?_⟩
  · intro b hm
    obtain ⟨c, hm1, hm2⟩ := List.mem_flatMap.1 hm
    exact hb c hm1 b hm2
  · intro ds hds
    have := d3 ((cs.zip cps).map fun c => (beBytes c.1, c.2)) (by
      intro c hm
      obtain ⟨q, hq, rfl⟩ := List.mem_map.1 hm
      exact h2 _ _ (hz q hq)) ds (by
        rw [hds, codeBytes, List.flatMap_map]
        have : cs = (cs.zip cps).map Prod.fst := by rw [List.map_fst_zip]; omega
        conv => lhs; rw [this]
        rw [List.flatMap_map])
    rw [List.map_map] at this
    have e : List.map (Prod.snd ∘ fun c : Nat × Nat => (beBytes c.1, c.2)) (cs.zip cps) = cps := by
      have : (cs.zip cps).map Prod.snd = cps := by rw [List.map_snd_zip]; omega
      exact this
    rw [e] at this
    exact this

/-- The same with one code for each character, chosen by `pick`: an encoding in the sense of C63. -/
theorem charset_source {s : Static π} {x : Charset} (hx : x.fine = true) (hh : x.high = true) (h : ReadsCharset s x) (p : Nat → π)
    (pick : Nat → Nat) : (Source.table (fun cp => beBytes (pick cp)) (fun cp => x.char (pick cp) = some cp)).Is s p := by
  obtain ⟨Rs, h1, h2⟩ := charset_codes (Charset.fine_iff hx) hh h
  exact .tables Rs _ _ h.isFrom h1 fun cp hc => h2 _ _ hc

/-- A phase that writes a character set is a target in the sense of C63. -/
theorem charset_target {s : Static π} {x : Charset} (hx : x.fine = true) (h : WritesCharset s x) : (Target.table (charsetEnc x) (charsetTakes x)).Is s := by
  have hf := Charset.fine_iff hx
  refine .tables (fun j => if j = 0 then x.toRules else Ascii.toRules) _ _ h.isTo ?_ ?_
  · intro j hj
    rw [h.two] at hj
    obtain rfl | rfl : j = 0 ∨ j = 1 := by omega
    · exact ⟨h.table, toRules_good hf⟩
    · exact ⟨h.ascii, toAscii_good⟩
  · intro cp hcp
    rw [h.two]
    have e : List.range (1 + 1) = [0, 1] := rfl
    rw [e]
    simp only [List.findSome?_cons, List.findSome?_nil, if_true, Nat.one_ne_zero, if_false]
    rw [toRules_lookup hf hcp]
    unfold charsetTakes charsetEnc Charset.code
    cases hw : x.writes.find cp with
    | some c => rfl
    | none =>
      simp only [Option.map_none]
      by_cases h1 : 1 ≤ cp ∧ cp < 0x80
      · have := toAscii_lookup cp h1.1 h1.2
        rw [if_pos h1, show uniDatum cp = [1, cp] by rw [uniDatum, be1 (by omega)], this]
        simp [be1 (show cp < 256 by omega)]
      · rw [if_neg h1]
        by_cases h2 : cp = 0x2DC
        · subst h2
          rw [if_pos rfl]
          have : lookup Ascii.toRules [uniDatum 0x2DC] = some [[0x7E]] := by
            rw [show uniDatum 0x2DC = [1, 2, 0xDC] by rw [uniDatum, be2 (by omega) (by omega)]]
            decide +kernel
          rw [this]
          simp [be1 (show (0x7E : Nat) < 256 by omega)]
        · rw [if_neg h2]
          have : lookup Ascii.toRules [uniDatum cp] = none := by
            cases hl : lookup Ascii.toRules [uniDatum cp] with
            | none => rfl
            | some o =>
              have := Verif.Spec.lookup_mem hl
              unfold Ascii.toRules at this
              unfold Scalar at hcp
              rcases List.mem_append.1 this with hm | hm
              · obtain ⟨k, hk, e⟩ := List.mem_map.1 hm
                simp only [Prod.mk.injEq, List.cons.injEq, and_true] at e
                have e1 : uniDatum (k + 1) = [1, k + 1] := by rw [uniDatum, be1 (by simp at hk; omega)]
                have := uni_inj (by simp at hk; omega) (by omega) (e1.trans e.1)
                simp at hk
                omega
              · simp only [List.mem_singleton, Prod.mk.injEq, List.cons.injEq, and_true] at hm
                have e1 : uniDatum 0x2DC = [1, 2, 0xDC] := by rw [uniDatum, be2 (by omega) (by omega)]
                exact absurd (uni_inj (by omega) (by omega) (hm.1.trans e1.symm)) h2
          rw [this]
          simp

/-! ### C76 -/

/-- The characters a sequence of codes stands for, and how a text is written: characters without a code are left out. -/
theorem filterMap_code (x : Charset) (cps : List Nat) : (cps.filter (charsetTakes x)).flatMap (charsetEnc x) = codeBytes (cps.filterMap x.code) := by
  induction cps with
  | nil => rfl
  | cons cp cps ih =>
    unfold codeBytes at ih ⊢
    cases h : x.code cp with
    | none => rw [List.filter_cons_of_neg (by simp [charsetTakes, h]), List.filterMap_cons_none h, ih]
    | some c =>
      rw [List.filter_cons_of_pos (by simp [charsetTakes, h]), List.filterMap_cons_some h, List.flatMap_cons, List.flatMap_cons, ih]
      simp [charsetEnc, h]

/-- C76, reading.  `X:b`, with `X` a character set and `b` any encoding of C63 or a character set: a text given as codes `cs`, cut anywhere,
comes out as the characters they stand for, in `b`. -/
theorem C76_reads {st : Nat → Static π} {ip : Nat → Nat → π → π} {ins : Ins π} {x : Charset} {b : Target} (hx : x.fine = true) (hh : x.high = true)
    (hn : ins.phasen = 2) (ha : ReadsCharset (st 1) x) (hb : b.Is (st 2))
    (cs cps : List Nat) (hcs : cs.map x.char = cps.map some)
    (as : List Arg) (l : Arg) (h1 : ∀ y ∈ as, y.flush = false) (h2 : l.flush = true) (h3 : ∀ y ∈ as ++ [l], y.mode ≠ .null)
    (h4 : ((as ++ [l]).filterMap (fun y => y.input)).flatten = codeBytes cs) :
    ∃ ds ins', Session st (ins.init st ip) (as ++ [l]) ds ins' ∧
      (ds.map (fun d => d.bytes)).flatten ++ ins'.pending.flatten = (cps.filter b.takes).flatMap b.enc ∧
      ins'.ierr = ins.ierr ∧ ins'.oerr = ins.oerr + (cps.filter fun cp => !b.takes cp).length := by
  have hsc : ∀ cp ∈ cps, Scalar cp := by
    intro cp hcp
    have : some cp ∈ cs.map x.char := by rw [hcs]; exact List.mem_map.2 ⟨cp, hcp, rfl⟩
    obtain ⟨c, _, e⟩ := List.mem_map.1 this
    unfold Charset.char at e
    split at e
    · simp only [Option.some.injEq] at e
      unfold Scalar Surrogate
      omega
    · exact ((Charset.fine_iff hx).codes _ (Chart.find_mem e)).2.2
  obtain ⟨ds, ins', k1, k2, k3, k4⟩ := C63_reads (mid := []) hn cps cps (charset_readsAs hx hh ha _ hcs) hb (fun k h => absurd h (by simp)) (by simp)
    hsc trivial rfl as l h1 h2 h3 h4
  exact ⟨ds, ins', k1, k2, k3, k4⟩

/-- C76, writing.  `a:X`, with `a` any encoding of C63: every character that has a code comes out as that code; the others are left out and
counted. -/
theorem C76_writes {st : Nat → Static π} {ip : Nat → Nat → π → π} {ins : Ins π} {x : Charset} {a : Source} (hx : x.fine = true)
    (hn : ins.phasen = 2) (ha : a.Is (st 1) (initPriv st ip ins 1)) (hb : WritesCharset (st 2) x)
    (cps : List Nat) (hcps : ∀ cp ∈ cps, a.Has cp ∧ Scalar cp)
    (as : List Arg) (l : Arg) (h1 : ∀ y ∈ as, y.flush = false) (h2 : l.flush = true) (h3 : ∀ y ∈ as ++ [l], y.mode ≠ .null)
    (h4 : ((as ++ [l]).filterMap (fun y => y.input)).flatten = cps.flatMap a.enc) :
    ∃ ds ins', Session st (ins.init st ip) (as ++ [l]) ds ins' ∧
      (ds.map (fun d => d.bytes)).flatten ++ ins'.pending.flatten = codeBytes (cps.filterMap x.code) ∧
      ins'.ierr = ins.ierr ∧ ins'.oerr = ins.oerr + (cps.filter fun cp => (x.code cp).isNone).length := by
  obtain ⟨ds, ins', k1, k2, k3, k4⟩ := C63_transcode hn ha (charset_target hx hb) cps hcps as l h1 h2 h3 h4
  refine ⟨ds, ins', k1, k2.trans (filterMap_code x cps), k3, k4.trans ?_⟩
  congr 3
  funext cp
  simp [Target.takes, charsetTakes]

/-- What becomes of codes that are read as characters and written again. -/
theorem C76_again {st : Nat → Static π} {ip : Nat → Nat → π → π} {ins : Ins π} {x y : Charset} (hx : x.fine = true) (hh : x.high = true)
    (hy : y.fine = true) (hn : ins.phasen = 2) (ha : ReadsCharset (st 1) x) (hb : WritesCharset (st 2) y)
    (cs cps : List Nat) (hcs : cs.map x.char = cps.map some)
    (as : List Arg) (l : Arg) (h1 : ∀ y ∈ as, y.flush = false) (h2 : l.flush = true) (h3 : ∀ y ∈ as ++ [l], y.mode ≠ .null)
    (h4 : ((as ++ [l]).filterMap (fun y => y.input)).flatten = codeBytes cs) :
    ∃ ds ins', Session st (ins.init st ip) (as ++ [l]) ds ins' ∧
      (ds.map (fun d => d.bytes)).flatten ++ ins'.pending.flatten = codeBytes (cps.filterMap y.code) ∧
      ins'.ierr = ins.ierr ∧ ins'.oerr = ins.oerr + (cps.filter fun cp => (y.code cp).isNone).length := by
  obtain ⟨ds, ins', k1, k2, k3, k4⟩ := C76_reads hx hh hn ha (charset_target hy hb) cs cps hcs as l h1 h2 h3 h4
  refine ⟨ds, ins', k1, k2.trans (filterMap_code y cps), k3, k4.trans ?_⟩
  congr 3
  funext cp
  simp [Target.takes, charsetTakes]

theorem exact_map {x : Charset} {ex : List Nat} (he : x.Exact ex) : ∀ {cs cps : List Nat}, (∀ c ∈ cs, c ∉ ex) → cs.map x.char = cps.map some →
    cps.filterMap x.code = cs ∧ (cps.filter fun cp => (x.code cp).isNone) = []
  | [], [], _, _ => ⟨rfl, rfl⟩
  | [], _ :: _, _, h => by simp at h
  | _ :: _, [], _, h => by simp at h
  | c :: cs, cp :: cps, hx, h => by
    simp only [List.map_cons, List.cons.injEq] at h
    have h1 := he c cp (hx c (by simp)) h.1
    obtain ⟨i1, i2⟩ := exact_map he (fun c hc => hx c (by simp [hc])) h.2
    rw [List.filterMap_cons_some h1, i1, List.filter_cons_of_neg (by simp [h1]), i2]
    exact ⟨rfl, rfl⟩

/-- C76.  `X:X` gives every text in the character set back unchanged: codes `cs` (but `ex`) that stand for characters, cut anywhere, come out as
they were, without errors. -/
theorem C76_identity {st : Nat → Static π} {ip : Nat → Nat → π → π} {ins : Ins π} {x : Charset} {ex : List Nat} (hx : x.fine = true)
    (hh : x.high = true) (he : x.Exact ex) (hn : ins.phasen = 2) (ha : ReadsCharset (st 1) x) (hb : WritesCharset (st 2) x)
    (cs : List Nat) (hcs : ∀ c ∈ cs, c ∉ ex ∧ (x.char c).isSome)
    (as : List Arg) (l : Arg) (h1 : ∀ y ∈ as, y.flush = false) (h2 : l.flush = true) (h3 : ∀ y ∈ as ++ [l], y.mode ≠ .null)
    (h4 : ((as ++ [l]).filterMap (fun y => y.input)).flatten = codeBytes cs) :
    ∃ ds ins', Session st (ins.init st ip) (as ++ [l]) ds ins' ∧
      (ds.map (fun d => d.bytes)).flatten ++ ins'.pending.flatten = codeBytes cs ∧ ins'.ierr = ins.ierr ∧ ins'.oerr = ins.oerr := by
  have hm : cs.map x.char = (cs.filterMap x.char).map some := by
    clear h4
    induction cs with
    | nil => rfl
    | cons c cs ih =>
      obtain ⟨cp, hc⟩ := Option.isSome_iff_exists.1 (hcs c (by simp)).2
      rw [List.map_cons, List.filterMap_cons_some hc, List.map_cons, ← ih fun c h => hcs c (by simp [h]), hc]
  obtain ⟨e1, e2⟩ := exact_map he (fun c h => (hcs c h).1) hm
  obtain ⟨ds, ins', k1, k2, k3, k4⟩ := C76_again hx hh hx hn ha hb cs _ hm as l h1 h2 h3 h4
  exact ⟨ds, ins', k1, by rw [k2, e1], k3, by rw [k4, e2]; rfl⟩

/-- C76.  Through another encoding: `X:b`, and then `b:X` with the bytes it gave, cut anew in any way, gives the codes back.  `b` is one encoding as
a target and as a source, and can express the text. -/
theorem C76_round_trip {st st' : Nat → Static π} {ip ip' : Nat → Nat → π → π} {ins ins0 : Ins π} {x : Charset} {ex : List Nat} {b : Source} {b' : Target}
    (hx : x.fine = true) (hh : x.high = true) (he : x.Exact ex)
    (hn : ins.phasen = 2) (ha : ReadsCharset (st 1) x) (hb : b'.Is (st 2))
    (hn' : ins0.phasen = 2) (hb' : b.Is (st' 1) (initPriv st' ip' ins0 1)) (hc : WritesCharset (st' 2) x) (hsame : b'.enc = b.enc)
    (cs cps : List Nat) (hcs : ∀ c ∈ cs, c ∉ ex) (hcps : cs.map x.char = cps.map some)
    (hbc : ∀ cp ∈ cps, Scalar cp ∧ b.Has cp ∧ b'.takes cp = true)
    (as : List Arg) (l : Arg) (h1 : ∀ y ∈ as, y.flush = false) (h2 : l.flush = true) (h3 : ∀ y ∈ as ++ [l], y.mode ≠ .null)
    (h4 : ((as ++ [l]).filterMap (fun y => y.input)).flatten = codeBytes cs) :
    ∃ ds ins', Session st (ins.init st ip) (as ++ [l]) ds ins' ∧ ins'.ierr = ins.ierr ∧ ins'.oerr = ins.oerr ∧
      ∀ (as' : List Arg) (l' : Arg), (∀ y ∈ as', y.flush = false) → l'.flush = true → (∀ y ∈ as' ++ [l'], y.mode ≠ .null) →
        ((as' ++ [l']).filterMap (fun y => y.input)).flatten = (ds.map (fun d => d.bytes)).flatten ++ ins'.pending.flatten →
        ∃ ds' ins'', Session st' (ins0.init st' ip') (as' ++ [l']) ds' ins'' ∧ ins''.ierr = ins0.ierr ∧ ins''.oerr = ins0.oerr ∧
          (ds'.map (fun d => d.bytes)).flatten ++ ins''.pending.flatten = codeBytes cs := by
  obtain ⟨ds, ins', k1, k2, k3, k4⟩ := C76_reads hx hh hn ha hb cs cps hcps as l h1 h2 h3 h4
  have f1 : cps.filter b'.takes = cps := List.filter_eq_self.2 fun cp h => (hbc cp h).2.2
  have f2 : (cps.filter fun cp => !b'.takes cp) = [] := List.filter_eq_nil_iff.2 fun cp h => by simp [(hbc cp h).2.2]
  obtain ⟨e1, e2⟩ := exact_map he hcs hcps
  refine ⟨ds, ins', k1, k3, by rw [k4, f2]; rfl, ?_⟩
  intro as' l' m1 m2 m3 m4
  rw [k2, f1, hsame] at m4
  obtain ⟨ds', ins'', n1, n2, n3, n4⟩ := C76_writes hx hn' hb' hc cps (fun cp h => ⟨(hbc cp h).2.1, (hbc cp h).1⟩) as' l' m1 m2 m3 m4
  exact ⟨ds', ins'', n1, n3, by rw [n4, e2]; rfl, by rw [n2, e1]⟩

theorem backs_exact {x : Charset} {ex : List Nat} (hx : x.fine = true) (h : x.backs ex = true) : x.Exact ex := by
  simp only [Charset.backs, Bool.and_eq_true] at h
  intro c cp hc hch
  unfold Charset.char at hch
  unfold Charset.code
  split at hch
  · rename_i hr
    simp only [Option.some.injEq] at hch
    subst hch
    cases hw : x.writes.find c with
    | none => simp [hr]
    | some v =>
      rcases backLow_mem h.2 (Chart.find_mem hw) with h1 | hm
      · simp only at h1; omega
      · exact absurd hm hc
  · have := backIn_mem h.1 (Chart.find_mem hch) (by have := ((Charset.fine_iff hx).codes _ (Chart.find_mem hch)).1; simp only at this; omega) hc
    rw [Chart.mem_find (Charset.fine_iff hx).writes this]

/-- The check behind `Keeps`: besides the pairs, ASCII characters in the table for writing have codes that stand for them. -/
noncomputable def Charset.stays (x : Charset) (low : List Nat) : Bool :=
  x.reads.keptBy x.writes && Chart.backLow x.writes low && low.all fun n => match x.writes.find n with
    | some c => Nat.ble 0x80 c && (match x.reads.find c with
      | some m => Nat.beq m n
      | none => false)
    | none => false

theorem stays_keeps {x : Charset} {low : List Nat} (hx : x.fine = true) (hh : x.high = true) (h : Charset.stays x low = true) : x.Keeps := by
  have hf := Charset.fine_iff hx
  simp only [Charset.stays, Bool.and_eq_true] at h
  obtain ⟨⟨h1, h2⟩, h3⟩ := h
  intro c cp hc
  have readable : ∀ c' u, (c', u) ∈ x.reads.pairs → x.char c' = some u := by
    intro c' u hm
    have := high_pairs hh hm
    unfold Charset.char
    rw [if_neg (by simp only at this; omega), Chart.mem_find hf.reads hm]
  unfold Charset.char at hc
  unfold Charset.code
  split at hc
  · rename_i hr
    simp only [Option.some.injEq] at hc
    subst hc
    cases hw : x.writes.find c with
    | none =>
      refine ⟨c, by simp [hr], ?_⟩
      unfold Charset.char
      rw [if_pos hr]
    | some v =>
      refine ⟨v, rfl, ?_⟩
      rcases backLow_mem h2 (Chart.find_mem hw) with k | k
      · simp only at k; omega
      · have := List.all_eq_true.1 h3 _ k
        simp only [hw, Bool.and_eq_true, Nat.ble_eq] at this
        obtain ⟨k1, k2⟩ := this
        unfold Charset.char
        rw [if_neg (by omega)]
        cases hm : x.reads.find v with
        | none => rw [hm] at k2; simp at k2
        | some m =>
          rw [hm] at k2
          rw [Nat.eq_of_beq_eq_true k2]
  · have hm := Chart.find_mem hc
    obtain ⟨c', k1, k2⟩ := keptBy_mem h1 hm (by have := (hf.codes _ hm).2.2.1; simp only at this; omega)
    exact ⟨c', by rw [Chart.mem_find hf.writes k1], readable _ _ k2⟩

/-- C76.  If characters keep their identity, `X:X` gives a text of the same characters, without errors; and doing it again changes nothing. -/
theorem C76_keeps {st : Nat → Static π} {ip : Nat → Nat → π → π} {ins : Ins π} {x : Charset} (hx : x.fine = true)
    (hh : x.high = true) (hk : x.Keeps) (hn : ins.phasen = 2) (ha : ReadsCharset (st 1) x) (hb : WritesCharset (st 2) x)
    (cs cps : List Nat) (hcs : cs.map x.char = cps.map some)
    (as : List Arg) (l : Arg) (h1 : ∀ y ∈ as, y.flush = false) (h2 : l.flush = true) (h3 : ∀ y ∈ as ++ [l], y.mode ≠ .null)
    (h4 : ((as ++ [l]).filterMap (fun y => y.input)).flatten = codeBytes cs) :
    ∃ ds ins' cs', Session st (ins.init st ip) (as ++ [l]) ds ins' ∧
      (ds.map (fun d => d.bytes)).flatten ++ ins'.pending.flatten = codeBytes cs' ∧ cs'.map x.char = cps.map some ∧ cps.map x.code = cs'.map some ∧
      ins'.ierr = ins.ierr ∧ ins'.oerr = ins.oerr := by
  obtain ⟨ds, ins', k1, k2, k3, k4⟩ := C76_again hx hh hx hn ha hb cs cps hcs as l h1 h2 h3 h4
  have key : ∀ {cs cps : List Nat}, cs.map x.char = cps.map some → (cps.filterMap x.code).map x.char = cps.map some ∧
      cps.map x.code = (cps.filterMap x.code).map some ∧ (cps.filter fun cp => (x.code cp).isNone) = [] := by
    intro cs
    induction cs with
    | nil =>
      intro cps h
      cases cps with
      | nil => exact ⟨rfl, rfl, rfl⟩
      | cons a l => simp at h
    | cons c cs ih =>
      intro cps h
      cases cps with
      | nil => simp at h
      | cons cp cps =>
        simp only [List.map_cons, List.cons.injEq] at h
        obtain ⟨c', e1, e2⟩ := hk c cp h.1
        obtain ⟨i1, i2, i3⟩ := ih h.2
        refine ⟨by rw [List.filterMap_cons_some e1, List.map_cons, e2, i1]; rfl, ?_, by rw [List.filter_cons_of_neg (by simp [e1]), i3]⟩
        rw [List.filterMap_cons_some e1, List.map_cons, List.map_cons, e1, i2]
  obtain ⟨e1, e2, e3⟩ := key hcs
  exact ⟨ds, ins', _, k1, k2, e1, e2, k3, by rw [k4, e3]; rfl⟩

/-! ### The compiled files -/

/-- A file of at most 60000 lines with short patterns and one short datum each, compiled by bsdconv-mktable and read back, has these rules. -/
theorem compiled_short (S : Rules Nat (List Datum)) (h : ∀ r ∈ S, (r.1 ≠ [] ∧ r.1.length ≤ 4 ∧ ∀ c ∈ r.1, c ≤ 256) ∧
    ∃ d, r.2 = [d] ∧ d ≠ [] ∧ d.length ≤ 4 ∧ IsBytes d) (hl : S.length ≤ 60000) : Represents (Verif.MkTable.compiled π (Verif.MkTable.lines S)) S := by
  refine C50_represents _ (fun r hr => ⟨(h r hr).1.1, (h r hr).1.2.2⟩) ?_ ?_
  · intro r hr
    obtain ⟨d, e, h1, _, h2⟩ := (h r hr).2
    rw [e]
    exact ⟨by intro y hy; simp at hy; subst hy; exact ⟨h1, h2⟩, by simp⟩
  · have := C50_size (Verif.MkTable.lines S) 4 240000 ?_ ?_ ?_
    · omega
    · intro r hr
      obtain ⟨r0, _, rfl⟩ := List.mem_map.1 hr
      exact ⟨rfl, _, rfl⟩
    · have key : ∀ rs : Rules Nat (List Datum), (∀ r ∈ rs, r ∈ S) →
          ((Verif.MkTable.lines rs).map fun r => r.pat.length).sum ≤ rs.length * 4 := by
        intro rs
        induction rs with
        | nil => intro _; simp [Verif.MkTable.lines]
        | cons r rs ih =>
          intro hm
          have k1 := ih fun x hx => hm x (by simp [hx])
          have k2 := (h r (hm r (by simp))).1.2.1
          simp only [Verif.MkTable.lines, List.map_cons, List.sum_cons, List.length_cons, List.length_map] at k1 ⊢
          omega
      have := key S fun _ h => h
      omega
    · intro r hr
      obtain ⟨r0, h0, rfl⟩ := List.mem_map.1 hr
      obtain ⟨d, e, _, h1, _⟩ := (h r0 h0).2
      simp only [e, symbols]
      exact h1

/-- Not too many lines. -/
def Charset.small (x : Charset) : Bool :=
  Nat.ble (x.reads.map fun r => r.2.length).sum 60000 && Nat.ble ((x.writes.map fun r => r.2.length).sum + x.odd.length) 60000

theorem run_length : ∀ (k : Nat) (vs : List Nat), (Chart.run k vs).length = vs.length
  | _, [] => rfl
  | k, v :: vs => by rw [Chart.run, List.length_cons, run_length, List.length_cons]

theorem pairs_length (t : Chart) : t.pairs.length = (t.map fun r => r.2.length).sum := by
  simp only [Chart.pairs, List.length_flatMap, run_length]

theorem scalar_length {n : Nat} (h : Scalar n) : (uniDatum n).length ≤ 4 := by
  unfold Scalar at h
  rcases Nat.lt_or_ge n 0x100 with h1 | h1
  · rw [uniDatum, be1 h1]; simp
  · rcases Nat.lt_or_ge n 0x10000 with h2 | h2
    · rw [uniDatum, be2 h1 h2]; simp
    · rw [uniDatum, be3 h2 (by omega)]; simp

theorem code_length {c : Nat} (h : c < 0x10000) : (beBytes c).length ≤ 4 ∧ beBytes c ≠ [] := by
  rcases (code_bytes h).2 with ⟨_, e⟩ | ⟨_, e⟩ <;> rw [e] <;> simp

/-- C76.  The two files of a character set, compiled by bsdconv-mktable and read back. -/
theorem C76_compiled {x : Charset} (hx : x.fine = true) (hs : Charset.small x = true) :
    Represents (Verif.MkTable.compiled π (Verif.MkTable.lines x.fromRules)) x.fromRules ∧
    Represents (Verif.MkTable.compiled π (Verif.MkTable.lines (symbolRules x.toRules))) (symbolRules x.toRules) := by
  simp only [Charset.small, Bool.and_eq_true, Nat.ble_eq] at hs
  rw [← pairs_length, ← pairs_length] at hs
  have hf := Charset.fine_iff hx
  constructor
  · refine compiled_short _ ?_ (by simpa [Charset.fromRules] using hs.1)
    intro r hr
    obtain ⟨q, hq, rfl⟩ := List.mem_map.1 hr
    obtain ⟨h1, h2, h3⟩ := hf.codes q hq
    exact ⟨⟨(code_length h2).2, (code_length h2).1, fun c hc => by have := (code_bytes h2).1 c hc; omega⟩,
      _, rfl, by simp [uniDatum], scalar_length h3, uniDatum_bytes _⟩
  · refine compiled_short _ ?_ (by simpa [Charset.toRules, symbolRules] using hs.2)
    intro r hr
    obtain ⟨q, hq, rfl⟩ := List.mem_map.1 hr
    rcases List.mem_append.1 hq with hq | hq
    · obtain ⟨a, ha, rfl⟩ := List.mem_map.1 hq
      obtain ⟨h3, h1, h2⟩ := hf.chars a ha
      exact ⟨⟨by simp [symbols, uniDatum], scalar_length h3, fun c hc => by have := uniDatum_bytes a.1 c hc; omega⟩,
        _, rfl, (code_length h2).2, (code_length h2).1, (code_bytes h2).1⟩
    · obtain ⟨a, ha, rfl⟩ := List.mem_map.1 hq
      obtain ⟨h3, h1, h2⟩ := hf.odd a ha
      exact ⟨⟨by simp [symbols], by simp [symbols], fun c hc => by simp [symbols] at hc; omega⟩,
        _, rfl, (code_length h2).2, (code_length h2).1, (code_bytes h2).1⟩

/-- The conversion `X:Y` with the compiled files; `X` is read as `ASCII,_X`. -/
def charsetConv (x y : Charset) (k : Nat) : Static Unit :=
  if k = 1 then ⟨.from_, fun j => if j = 0 then trieCodec Ascii.fromRules else Verif.MkTable.compiled _ (Verif.MkTable.lines x.fromRules), 1⟩
  else ⟨.to_, fun j => if j = 0 then Verif.MkTable.compiled _ (Verif.MkTable.lines (symbolRules y.toRules)) else trieCodec (symbolRules Ascii.toRules), 1⟩

/-- `X` is read as `_X,ASCII,FALLBACK-UNICODE`. -/
def charsetConv' (x y : Charset) (k : Nat) : Static Unit :=
  if k = 1 then ⟨.from_, fun j => if j = 0 then Verif.MkTable.compiled _ (Verif.MkTable.lines x.fromRules) else if j = 1 then trieCodec Ascii.fromRules
    else trieCodec fallbackRules, 2⟩
  else charsetConv x y 2

theorem trieAscii : Represents (trieCodec Ascii.fromRules : Codec π) Ascii.fromRules := by
  refine represents_trie _ ?_
  intro r hr
  obtain ⟨c, _, _, rfl⟩ := fromAscii_mem hr
  simp

theorem trieToAscii : Represents (trieCodec (symbolRules Ascii.toRules) : Codec π) (symbolRules Ascii.toRules) := by
  refine represents_trie _ ?_
  intro r hr
  obtain ⟨q, hq, rfl⟩ := List.mem_map.1 hr
  have h1 := toAscii_good.1 q hq
  have h2 := toAscii_good.2 q hq
  exact symbols_ne h1.1 fun d hd => (h1.2.1 d hd).1

theorem charsetConv_reads {x y : Charset} (hx : x.fine = true) (hs : Charset.small x = true) : ReadsCharset (charsetConv x y 1) x := by
  refine ⟨rfl, [Ascii.fromRules, x.fromRules], by simp [readOrders], rfl, ?_⟩
  intro j hj
  obtain rfl | rfl : j = 0 ∨ j = 1 := by simp at hj; omega
  · exact trieAscii
  · exact (C76_compiled hx hs).1

theorem charsetConv'_reads {x y : Charset} (hx : x.fine = true) (hs : Charset.small x = true) : ReadsCharset (charsetConv' x y 1) x := by
  refine ⟨rfl, [x.fromRules, Ascii.fromRules, fallbackRules], by simp [readOrders], rfl, ?_⟩
  intro j hj
  obtain rfl | rfl | rfl : j = 0 ∨ j = 1 ∨ j = 2 := by simp at hj; omega
  · exact (C76_compiled hx hs).1
  · exact trieAscii
  · refine represents_trie _ ?_
    intro r hr
    obtain ⟨q, _, rfl⟩ := List.mem_map.1 hr
    simp

theorem charsetConv_writes {x y : Charset} (hy : y.fine = true) (hs : Charset.small y = true) : WritesCharset (charsetConv x y 2) y :=
  ⟨rfl, rfl, (C76_compiled hy hs).2, trieToAscii⟩

/-! ### The shipped tables -/

/-- A character set whose tables are in order: `X:X` changes nothing but the codes `ex`. -/
structure CharsetOk (x : Charset) (ex : List Nat) : Prop where
  fine : x.fine = true
  high : x.high = true
  small : Charset.small x = true
  exact : x.Exact ex

theorem charset_ok {x : Charset} {ex : List Nat} (h : (x.fine && x.high && Charset.small x && x.backs ex) = true) : CharsetOk x ex := by
  simp only [Bool.and_eq_true] at h
  exact ⟨h.1.1.1, h.1.1.2, h.1.2, backs_exact h.1.1.1 h.2⟩

theorem C76_iso88591 : CharsetOk Charsets.iso88591 [] := charset_ok (by decide +kernel)
theorem C76_cp1251 : CharsetOk Charsets.cp1251 [] := charset_ok (by decide +kernel)
theorem C76_cp1252 : CharsetOk Charsets.cp1252 [] := charset_ok (by decide +kernel)

/-- CP1253: all but the codes of the 21 lines `0100..` of the file for writing. -/
theorem C76_cp1253_partial : CharsetOk Charsets.cp1253 (Charsets.cp1253.odd.map Prod.snd) := charset_ok (by decide +kernel)
theorem C76_cp874_partial : CharsetOk Charsets.cp874 [0xA0] := charset_ok (by decide +kernel)

/-- `X:X` with the compiled files of such a character set, started anew: every text comes out as it was. -/
theorem C76_files {x : Charset} {ex : List Nat} (h : CharsetOk x ex) (cs : List Nat) (hcs : ∀ c ∈ cs, c ∉ ex ∧ (x.char c).isSome)
    (as : List Arg) (l : Arg) (h1 : ∀ y ∈ as, y.flush = false) (h2 : l.flush = true) (h3 : ∀ y ∈ as ++ [l], y.mode ≠ .null)
    (h4 : ((as ++ [l]).filterMap (fun y => y.input)).flatten = codeBytes cs) {ins : Ins Unit} (hn : ins.phasen = 2) :
    ∃ ds ins', Session (charsetConv x x) (ins.init (charsetConv x x) (fun _ _ t => t)) (as ++ [l]) ds ins' ∧
      (ds.map (fun d => d.bytes)).flatten ++ ins'.pending.flatten = codeBytes cs ∧ ins'.ierr = ins.ierr ∧ ins'.oerr = ins.oerr :=
  C76_identity h.fine h.high h.exact hn (charsetConv_reads h.fine h.small) (charsetConv_writes h.fine h.small) cs hcs as l h1 h2 h3 h4

-- `A€é` in CP1252, in two pieces: it comes out as it was.
example : ∃ ds ins', Session (charsetConv' Charsets.cp1252 Charsets.cp1252)
      (({ ph := fun _ => { priv := fun _ => () }, phasen := 2 } : Ins Unit).init (charsetConv' Charsets.cp1252 Charsets.cp1252) (fun _ _ t => t))
      ([⟨some [0x41], false, .file⟩] ++ [⟨some [0x80, 0xE9], true, .file⟩]) ds ins' ∧
    (ds.map (fun d => d.bytes)).flatten ++ ins'.pending.flatten = [0x41, 0x80, 0xE9] ∧ ins'.ierr = 0 ∧ ins'.oerr = 0 := by
  have e : codeBytes [0x41, 0x80, 0xE9] = [0x41, 0x80, 0xE9] := by simp [codeBytes, be1]
  have := C76_identity (st := charsetConv' Charsets.cp1252 Charsets.cp1252) (ip := fun _ _ t => t)
    (ins := { ph := fun _ => { priv := fun _ => () }, phasen := 2 }) C76_cp1252.fine C76_cp1252.high C76_cp1252.exact rfl
    (charsetConv'_reads C76_cp1252.fine C76_cp1252.small) (charsetConv_writes (x := Charsets.cp1252) C76_cp1252.fine C76_cp1252.small)
    [0x41, 0x80, 0xE9] (by decide +kernel) [⟨some [0x41], false, .file⟩] ⟨some [0x80, 0xE9], true, .file⟩ (by simp) rfl (by simp) (by rw [e]; rfl)
  rw [e] at this
  exact this

/-! ### C77 -/

theorem drops_map {x : Charset} {ex : List Nat} (he : x.Exact ex) (hd : ∀ c ∈ ex, ∀ cp, x.char c = some cp → x.code cp = none) :
    ∀ {cs cps : List Nat}, cs.map x.char = cps.map some →
      cps.filterMap x.code = cs.filter (fun c => c ∉ ex) ∧ (cps.filter fun cp => (x.code cp).isNone).length = (cs.filter fun c => c ∈ ex).length
  | [], [], _ => ⟨rfl, rfl⟩
  | [], _ :: _, h => by simp at h
  | _ :: _, [], h => by simp at h
  | c :: cs, cp :: cps, h => by
    simp only [List.map_cons, List.cons.injEq] at h
    obtain ⟨i1, i2⟩ := drops_map he hd h.2
    by_cases hc : c ∈ ex
    · have h1 := hd c hc cp h.1
      rw [List.filterMap_cons_none h1, i1, List.filter_cons_of_neg (by simp [hc]), List.filter_cons_of_pos (by simp [h1]),
        List.filter_cons_of_pos (by simp [hc]), List.length_cons, List.length_cons, i2]
      exact ⟨rfl, rfl⟩
    · have h1 := he c cp hc h.1
      rw [List.filterMap_cons_some h1, i1, List.filter_cons_of_pos (by simp [hc]), List.filter_cons_of_neg (by simp [h1]),
        List.filter_cons_of_neg (by simp [hc]), i2]
      exact ⟨rfl, rfl⟩

/-- C77.  With tables in which the characters of the codes `ex` cannot be written, `X:X` leaves these codes out of every text, and counts them. -/
theorem C77_drops {st : Nat → Static π} {ip : Nat → Nat → π → π} {ins : Ins π} {x : Charset} {ex : List Nat} (h : CharsetOk x ex)
    (hd : ∀ c ∈ ex, ∀ cp, x.char c = some cp → x.code cp = none) (hn : ins.phasen = 2) (ha : ReadsCharset (st 1) x) (hb : WritesCharset (st 2) x)
    (cs : List Nat) (hcs : ∀ c ∈ cs, (x.char c).isSome)
    (as : List Arg) (l : Arg) (h1 : ∀ y ∈ as, y.flush = false) (h2 : l.flush = true) (h3 : ∀ y ∈ as ++ [l], y.mode ≠ .null)
    (h4 : ((as ++ [l]).filterMap (fun y => y.input)).flatten = codeBytes cs) :
    ∃ ds ins', Session st (ins.init st ip) (as ++ [l]) ds ins' ∧
      (ds.map (fun d => d.bytes)).flatten ++ ins'.pending.flatten = codeBytes (cs.filter fun c => c ∉ ex) ∧ ins'.ierr = ins.ierr ∧
      ins'.oerr = ins.oerr + (cs.filter fun c => c ∈ ex).length := by
  have hm : cs.map x.char = (cs.filterMap x.char).map some := by
    clear h4
    induction cs with
    | nil => rfl
    | cons c cs ih =>
      obtain ⟨cp, hc⟩ := Option.isSome_iff_exists.1 (hcs c (by simp))
      rw [List.map_cons, List.filterMap_cons_some hc, List.map_cons, ← ih fun c h => hcs c (by simp [h]), hc]
  obtain ⟨e1, e2⟩ := drops_map h.exact hd hm
  obtain ⟨ds, ins', k1, k2, k3, k4⟩ := C76_again h.fine h.high h.fine hn ha hb cs _ hm as l h1 h2 h3 h4
  exact ⟨ds, ins', k1, by rw [k2, e1], k3, by rw [k4, e2]⟩

def noCode (x : Charset) (c : Nat) : Bool :=
  match x.char c with
  | some cp => (x.code cp).isNone
  | none => false

theorem noCode_all {x : Charset} {ex : List Nat} (h : ex.all (noCode x) = true) : ∀ c ∈ ex, ∀ cp, x.char c = some cp → x.code cp = none := by
  intro c hc cp hp
  have := List.all_eq_true.1 h c hc
  simp only [noCode, hp] at this
  simpa using this

/-- C77.  CP1253 (Greek Windows): the file for writing has 21 characters with a superfluous zero byte (`0100A3` for the pound sign), so `CP1253:CP1253` drops
them: no-break space, pound sign, .. -/
theorem C77_cp1253_violated : ∀ c ∈ Charsets.cp1253.odd.map Prod.snd, ∀ cp, Charsets.cp1253.char c = some cp → Charsets.cp1253.code cp = none :=
  noCode_all (by decide +kernel)

/-- The same for the no-break space of CP874 (Thai Windows). -/
theorem C77_cp874_violated : ∀ c ∈ [0xA0], ∀ cp, Charsets.cp874.char c = some cp → Charsets.cp874.code cp = none := noCode_all (by decide +kernel)

-- `a£b` in CP1253: the pound sign is gone.
example : ∃ ds ins', Session (charsetConv' Charsets.cp1253 Charsets.cp1253)
      (({ ph := fun _ => { priv := fun _ => () }, phasen := 2 } : Ins Unit).init (charsetConv' Charsets.cp1253 Charsets.cp1253) (fun _ _ t => t))
      ([] ++ [⟨some [0x61, 0xA3, 0x62], true, .file⟩]) ds ins' ∧
    (ds.map (fun d => d.bytes)).flatten ++ ins'.pending.flatten = [0x61, 0x62] ∧ ins'.ierr = 0 ∧ ins'.oerr = 1 := by
  have e : codeBytes [0x61, 0xA3, 0x62] = [0x61, 0xA3, 0x62] := by simp [codeBytes, be1]
  obtain ⟨ds, ins', k1, k2, k3, k4⟩ := C77_drops (st := charsetConv' Charsets.cp1253 Charsets.cp1253) (ip := fun _ _ t => t)
    (ins := { ph := fun _ => { priv := fun _ => () }, phasen := 2 }) C76_cp1253_partial C77_cp1253_violated rfl
    (charsetConv'_reads C76_cp1253_partial.fine C76_cp1253_partial.small)
    (charsetConv_writes (x := Charsets.cp1253) C76_cp1253_partial.fine C76_cp1253_partial.small)
    [0x61, 0xA3, 0x62] (by decide +kernel) [] ⟨some [0x61, 0xA3, 0x62], true, .file⟩ (by simp) rfl (by simp) (by rw [e]; rfl)
  have f1 : ([0x61, 0xA3, 0x62].filter fun c => c ∉ Charsets.cp1253.odd.map Prod.snd) = [0x61, 0x62] := by decide +kernel
  have f2 : ([0x61, 0xA3, 0x62].filter fun c => c ∈ Charsets.cp1253.odd.map Prod.snd).length = 1 := by decide +kernel
  rw [f1] at k2
  rw [f2] at k4
  exact ⟨ds, ins', k1, by rw [k2]; simp [codeBytes, be1], k3, k4⟩

end Verif.Props
