import Verif.Proofs.MapTable
import Verif.Model.MapTables
import Verif.Props.MkTable
/-
C72..C74: case, width and the other conversions whose rule files replace character by character.
-/
namespace Verif.Props
open Verif.Spec
open Verif.Engine hiding Datum step

variable {π : Type}

/-! ### Whole conversions -/

/-- A phase with the compiled rule file: its rules `t`, possibly behind a line that does not concern characters. -/
structure Maps (s : Static π) (t : Pages) : Prop where
  fine : t.fine = true
  table : ∃ junk, Aside junk ∧ PhaseTables s (.rewrite [junk ++ t.data])

/-- What a chain of such phases does. -/
def chained (ts : List Pages) (cps : List Nat) : List Nat := ts.foldl (fun x t => t.apply x) cps

theorem textData_chars {cps : List Nat} : ∀ d ∈ textData cps, char? d ≠ none := by
  intro d hd
  obtain ⟨n, _, rfl⟩ := List.mem_map.1 hd
  simp [char?, uniDatum]

theorem maps_real {s : Static π} {t : Pages} (h : Maps s t) (i : (Nat → π) → Prop) :
    ∃ P : Proc π, Realises s i P ∧ P.dec = false ∧ ∀ cps, (∀ cp ∈ cps, Scalar cp) →
      P.ok (textData cps) ∧ P.out (textData cps) = textData (t.apply cps) ∧ P.inErrors (textData cps) = 0 ∧ P.outErrors (textData cps) = 0 := by
  obtain ⟨junk, hj, hs⟩ := h.table
  refine ⟨_, map_real hs i, rfl, ?_⟩
  intro cps hc
  have e0 := text_nonEmpty (textData_chars (cps := cps))
  refine ⟨?_, ?_, rfl, rfl⟩
  · intro d hd r hr hh
    rw [e0] at hd
    rcases List.mem_append.1 hr with hr | hr
    · exact absurd (hj r hr d hh) (textData_chars d hd)
    · obtain ⟨q, _, rfl⟩ := List.mem_map.1 hr
      simp only [List.head?_cons, Option.some.injEq] at hh
      simp [hh]
  · simp only [e0]
    clear e0
    induction cps with
    | nil => rfl
    | cons n cps ih =>
      have hn := hc n (by simp)
      have e1 : lookup (junk ++ t.data) [uniDatum n] = (t.find n).map (List.map uniDatum) := by
        rw [lookup_append, lookup_miss, Option.none_or, data_lookup h.fine (by have := hn.2.1; omega)]
        intro r hr e
        exact textData_chars (cps := [n]) (uniDatum n) (by simp [textData]) (hj r hr (uniDatum n) (by rw [e]; rfl))
      have e2 := ih fun c h => hc c (by simp [h])
      have e3 : t.apply (n :: cps) = (t.find n).getD [n] ++ t.apply cps := rfl
      rw [e3]
      simp only [textData, List.map_append] at e2 ⊢
      simp only [expand] at e2 ⊢
      rw [List.map_cons, List.flatMap_cons, e2, e1]
      cases t.find n <;> rfl

/-- The conversion `a:T1:..:Tn:b` between encodings of C63, each `Ti` a rule file that replaces character by character, for every text, cut
anywhere: the text as `T1`, then `T2`.. make it, in encoding `b`. -/
theorem C72_maps {st : Nat → Static π} {ip : Nat → Nat → π → π} {ins : Ins π} {a : Source} {b : Target} (ts : List Pages)
    (hn : ins.phasen = ts.length + 2) (ha : a.Is (st 1) (initPriv st ip ins 1)) (hb : b.Is (st (ts.length + 2)))
    (ht : ∀ k (h : k < ts.length), Maps (st (k + 2)) ts[k])
    (cps : List Nat) (hcps : ∀ cp ∈ cps, a.Has cp ∧ Scalar cp)
    (as : List Arg) (l : Arg) (h1 : ∀ x ∈ as, x.flush = false) (h2 : l.flush = true) (h3 : ∀ x ∈ as ++ [l], x.mode ≠ .null)
    (h4 : ((as ++ [l]).filterMap (fun x => x.input)).flatten = cps.flatMap a.enc) :
    ∃ ds ins', Session st (ins.init st ip) (as ++ [l]) ds ins' ∧
      (ds.map (fun d => d.bytes)).flatten ++ ins'.pending.flatten = ((chained ts cps).filter b.takes).flatMap b.enc ∧
      ins'.ierr = ins.ierr ∧ ins'.oerr = ins.oerr + ((chained ts cps).filter fun cp => !b.takes cp).length := by
  have key : ∀ (ts : List Pages) (k0 : Nat), (∀ k (h : k < ts.length), Maps (st (k + k0)) ts[k]) →
      ∃ mid : List (Proc π), mid.length = ts.length ∧
        (∀ k (h : k < mid.length), Realises (st (k + k0)) (fun p => p = initPriv st ip ins (k + k0)) mid[k]) ∧ (∀ P ∈ mid, P.dec = false) ∧
        ∀ cps, (∀ cp ∈ cps, Scalar cp) → (∀ cp ∈ chained ts cps, Scalar cp) ∧
          OkRest mid (textData cps) ∧ runProcs mid (textData cps) = textData (chained ts cps) ∧ runOut mid (textData cps) = 0 := by
    intro ts
    induction ts with
    | nil => intro k0 _; exact ⟨[], rfl, fun k h => absurd h (by simp), by simp, fun cps hc => ⟨hc, trivial, rfl, rfl⟩⟩
    | cons t ts ih =>
      intro k0 hk
      obtain ⟨mid, m1, m2, m3, m4⟩ := ih (k0 + 1) fun k h => by
        have := hk (k + 1) (by simp; omega)
        rw [show k + (k0 + 1) = k + 1 + k0 by omega]
        simpa using this
      have h0 := hk 0 (by simp)
      simp only [Nat.zero_add, List.getElem_cons_zero] at h0
      obtain ⟨P, p1, p2, p3⟩ := maps_real h0 (fun p => p = initPriv st ip ins k0)
      refine ⟨P :: mid, by simp [m1], ?_, ?_, ?_⟩
      · intro k h
        cases k with
        | zero => simpa using p1
        | succ k =>
          have := m2 k (by simpa using h)
          rw [show k + 1 + k0 = k + (k0 + 1) by omega]
          simpa using this
      · intro Q hQ
        rcases List.mem_cons.1 hQ with rfl | hQ
        · exact p2
        · exact m3 Q hQ
      · intro cps hc
        obtain ⟨q1, q2, q3, q4⟩ := p3 cps hc
        obtain ⟨r0, r1, r2, r3⟩ := m4 _ (apply_scalar h0.fine hc)
        exact ⟨r0, by simp only [OkRest]; rw [q2]; exact ⟨q3, q1, r1⟩, by simp only [runProcs]; rw [q2]; exact r2, by simp only [runOut]; rw [q2, q4, r3]⟩
  obtain ⟨mid, m1, m2, m3, m4⟩ := key ts 2 ht
  obtain ⟨c1, c2, c3, c4⟩ := m4 cps fun c h => (hcps c h).2
  rw [← m1] at hn hb
  obtain ⟨ds, ins', k1, k2, k3, k4⟩ := C63_through hn ha hb m2 m3 cps (chained ts cps) (fun c h => (hcps c h).1) c1 c2 c3 as l h1 h2 h3 h4
  exact ⟨ds, ins', k1, k2, k3, by rw [k4, c4]; rfl⟩

/-- Two conversions of the same text, one through `ts`, one through `ts'`, each given the text cut in its own way: if the tables agree on the
text, so do the outputs. -/
theorem C72_same {st st' : Nat → Static π} {ip ip' : Nat → Nat → π → π} {ins ins0 : Ins π} {a a' : Source} {b : Target} (ts ts' : List Pages)
    (hn : ins.phasen = ts.length + 2) (ha : a.Is (st 1) (initPriv st ip ins 1)) (hb : b.Is (st (ts.length + 2)))
    (ht : ∀ k (h : k < ts.length), Maps (st (k + 2)) ts[k])
    (hn' : ins0.phasen = ts'.length + 2) (ha' : a'.Is (st' 1) (initPriv st' ip' ins0 1)) (hb' : b.Is (st' (ts'.length + 2)))
    (ht' : ∀ k (h : k < ts'.length), Maps (st' (k + 2)) ts'[k])
    (cps : List Nat) (hcps : ∀ cp ∈ cps, a.Has cp ∧ a'.Has cp ∧ Scalar cp) (hsame : chained ts cps = chained ts' cps)
    (as : List Arg) (l : Arg) (h1 : ∀ x ∈ as, x.flush = false) (h2 : l.flush = true) (h3 : ∀ x ∈ as ++ [l], x.mode ≠ .null)
    (h4 : ((as ++ [l]).filterMap (fun x => x.input)).flatten = cps.flatMap a.enc)
    (as' : List Arg) (l' : Arg) (h1' : ∀ x ∈ as', x.flush = false) (h2' : l'.flush = true) (h3' : ∀ x ∈ as' ++ [l'], x.mode ≠ .null)
    (h4' : ((as' ++ [l']).filterMap (fun x => x.input)).flatten = cps.flatMap a'.enc) :
    ∃ ds ins1 ds' ins2, Session st (ins.init st ip) (as ++ [l]) ds ins1 ∧ Session st' (ins0.init st' ip') (as' ++ [l']) ds' ins2 ∧
      (ds.map (fun d => d.bytes)).flatten ++ ins1.pending.flatten = (ds'.map (fun d => d.bytes)).flatten ++ ins2.pending.flatten := by
  obtain ⟨ds, i1, k1, k2, _⟩ := C72_maps ts hn ha hb ht cps (fun c h => ⟨(hcps c h).1, (hcps c h).2.2⟩) as l h1 h2 h3 h4
  obtain ⟨ds', i2, m1, m2, _⟩ := C72_maps ts' hn' ha' hb' ht' cps (fun c h => ⟨(hcps c h).2.1, (hcps c h).2.2⟩) as' l' h1' h2' h3' h4'
  exact ⟨ds, i1, ds', i2, k1, m1, by rw [k2, m2, hsame]⟩

/-! ### The compiled files -/

theorem uni_length {n : Nat} (h : Scalar n) : (uniDatum n).length ≤ 4 := by
  rcases Nat.lt_or_ge n 0x100 with h1 | h1
  · rw [uniDatum, be1 (by have := h.1; omega)]; simp
  · rcases Nat.lt_or_ge n 0x10000 with h2 | h2
    · rw [uniDatum, be2 h1 h2]; simp
    · rw [uniDatum, be3 h2 (by have := h.2.1; omega)]; simp

theorem symbols_length (k : Nat) : ∀ ds : List Datum, (∀ d ∈ ds, d.length ≤ k) → (symbols ds).length ≤ ds.length * (k + 1)
  | [], _ => by simp [symbols]
  | [d], h => by have := h d (by simp); simp [symbols]; omega
  | d :: e :: ds, h => by
    have := symbols_length k (e :: ds) fun x hx => h x (by simp [hx])
    have h0 := h d (by simp)
    simp only [symbols, List.length_append, List.length_cons, Nat.add_mul, Nat.one_mul] at this ⊢
    omega

/-- C72.  The file compiled by bsdconv-mktable and read back (C50) makes such a phase. -/
theorem C72_compiled {t : Pages} (h : t.fine = true) (hs : t.small = true) {s : Static π} (h1 : s.type = .inter) (h2 : s.codecn = 0)
    (h3 : s.codecs 0 = Verif.MkTable.compiled π (Verif.MkTable.lines (symbolRules t.data))) : Maps s t := by
  unfold Pages.small at hs
  simp only [Bool.and_eq_true, Nat.ble_eq, List.all_eq_true] at hs
  refine ⟨h, [], by intro r hr; simp at hr, ?_⟩
  have hg := data_good h
  refine ⟨h1, by simp [h2], ?_, fun R hR => by simp only [List.nil_append, List.mem_cons, List.not_mem_nil, or_false] at hR; subst hR; exact hg⟩
  intro j hj
  obtain rfl : j = 0 := by simp at hj; omega
  rw [h3]
  simp only [List.nil_append, List.getElem_cons_zero]
  have hrule : ∀ r ∈ symbolRules t.data, ∃ q ∈ t.rules, r = (uniDatum q.1, q.2.map uniDatum) := by
    intro r hr
    obtain ⟨r0, h0, rfl⟩ := List.mem_map.1 hr
    obtain ⟨q, hq, rfl⟩ := List.mem_map.1 h0
    exact ⟨q, hq, rfl⟩
  refine C50_represents _ ?_ ?_ ?_
  · intro r hr
    obtain ⟨r0, h0, rfl⟩ := List.mem_map.1 hr
    obtain ⟨k1, k2, _⟩ := hg r0 h0
    exact ⟨symbols_ne k1 (fun d hd => (k2 d hd).1), symbols_le (fun d hd => (k2 d hd).2)⟩
  · intro r hr
    obtain ⟨q, hq, rfl⟩ := hrule r hr
    have := hs.2 q hq
    refine ⟨?_, by simp; omega⟩
    intro d hd
    obtain ⟨m, _, rfl⟩ := List.mem_map.1 hd
    exact ⟨by simp [uniDatum], uniDatum_bytes _⟩
  · have := C50_size (Verif.MkTable.lines (symbolRules t.data)) 100 40000 ?_ ?_ ?_
    · omega
    · intro r hr
      obtain ⟨r0, _, rfl⟩ := List.mem_map.1 hr
      exact ⟨rfl, _, rfl⟩
    · have : ∀ rs : List (Nat × List Nat), (∀ r ∈ rs, r ∈ t.rules) →
          ((Verif.MkTable.lines (symbolRules (rs.map fun r => ([uniDatum r.1], r.2.map uniDatum)))).map fun r => r.pat.length).sum ≤ rs.length * 4 := by
        intro rs
        induction rs with
        | nil => intro _; simp [Verif.MkTable.lines, symbolRules]
        | cons r rs ih =>
          intro hm
          have k1 := ih fun x hx => hm x (by simp [hx])
          have k2 := uni_length (fine_rule h (hm r (by simp))).1
          simp only [Verif.MkTable.lines, symbolRules, List.map_cons, List.sum_cons, List.length_cons, symbols, List.length_map] at k1 ⊢
          omega
      have := this t.rules fun _ h => h
      simp only [Pages.data]
      omega
    · intro r hr
      obtain ⟨r0, h0, rfl⟩ := List.mem_map.1 hr
      obtain ⟨q, hq, rfl⟩ := hrule r0 h0
      have k1 := symbols_length 4 (q.2.map uniDatum) (by
        intro d hd
        obtain ⟨m, hm, rfl⟩ := List.mem_map.1 hd
        exact uni_length ((fine_rule h hq).2.1 m hm))
      have k2 := hs.2 q hq
      simp only [List.length_map] at k1
      simp only
      omega

/-! ### The shipped tables -/

/-- The shipped files of characters to characters. -/
def mapTables : List Pages := [MapTable.lower, MapTable.upper, MapTable.casefold, MapTable.full, MapTable.half, MapTable.asciifold, MapTable.kanji,
  MapTable.hanja, MapTable.sub, MapTable.super]

theorem mapTables_ok : (mapTables.all fun t => t.fine && t.small) = true := by decide +kernel

theorem mapTables_fine {t : Pages} (h : t ∈ mapTables) : t.fine = true ∧ t.small = true := by
  have := List.all_eq_true.1 mapTables_ok t h
  simp only [Bool.and_eq_true] at this
  exact this

/-- All but UPPER. -/
def stableTables : List Pages := [MapTable.lower, MapTable.casefold, MapTable.full, MapTable.half, MapTable.asciifold, MapTable.kanji, MapTable.hanja,
  MapTable.sub, MapTable.super]

theorem lower_idem : MapTable.lower.absorbs MapTable.lowerCuts MapTable.lower MapTable.lowerCuts [] = true := by decide +kernel
theorem casefold_idem : MapTable.casefold.absorbs MapTable.casefoldCuts MapTable.casefold MapTable.casefoldCuts [] = true := by decide +kernel
theorem full_idem : MapTable.full.absorbs MapTable.fullCuts MapTable.full MapTable.fullCuts [] = true := by decide +kernel
theorem half_idem : MapTable.half.absorbs MapTable.halfCuts MapTable.half MapTable.halfCuts [] = true := by decide +kernel
theorem asciifold_idem : MapTable.asciifold.absorbs MapTable.asciifoldCuts MapTable.asciifold MapTable.asciifoldCuts [] = true := by decide +kernel
theorem kanji_idem : MapTable.kanji.absorbs MapTable.kanjiCuts MapTable.kanji MapTable.kanjiCuts [] = true := by decide +kernel
theorem hanja_idem : MapTable.hanja.absorbs MapTable.hanjaCuts MapTable.hanja MapTable.hanjaCuts [] = true := by decide +kernel
theorem sub_idem : MapTable.sub.absorbs MapTable.subCuts MapTable.sub MapTable.subCuts [] = true := by decide +kernel
theorem super_idem : MapTable.super.absorbs MapTable.superCuts MapTable.super MapTable.superCuts [] = true := by decide +kernel

/-- C72.  LOWER, CASEFOLD, FULL, HALF, ASCIIFOLD, KANJI, HANJA, SUB and SUPER, done a second time, change nothing. -/
theorem C72_idempotent {t : Pages} (ht : t ∈ stableTables) (cps : List Nat) : t.apply (t.apply cps) = t.apply cps := by
  simp only [stableTables, List.mem_cons, List.not_mem_nil, or_false] at ht
  rcases ht with rfl | rfl | rfl | rfl | rfl | rfl | rfl | rfl | rfl
  · exact Pages.apply_absorbs lower_idem cps (by simp)
  · exact Pages.apply_absorbs casefold_idem cps (by simp)
  · exact Pages.apply_absorbs full_idem cps (by simp)
  · exact Pages.apply_absorbs half_idem cps (by simp)
  · exact Pages.apply_absorbs asciifold_idem cps (by simp)
  · exact Pages.apply_absorbs kanji_idem cps (by simp)
  · exact Pages.apply_absorbs hanja_idem cps (by simp)
  · exact Pages.apply_absorbs sub_idem cps (by simp)
  · exact Pages.apply_absorbs super_idem cps (by simp)

/-- The letters with iota subscript for which UPPER has two rules. -/
def iotas : List Nat := [0x1F80, 0x1F81, 0x1F82, 0x1F83, 0x1F84, 0x1F85, 0x1F86, 0x1F87, 0x1F90, 0x1F91, 0x1F92, 0x1F93, 0x1F94, 0x1F95, 0x1F96, 0x1F97,
  0x1FA0, 0x1FA1, 0x1FA2, 0x1FA3, 0x1FA4, 0x1FA5, 0x1FA6, 0x1FA7, 0x1FB3, 0x1FC3, 0x1FF3]

theorem upper_ok : MapTable.upper.absorbs MapTable.upperCuts MapTable.upper MapTable.upperCuts iotas = true := by decide +kernel

/-- C72, UPPER: only if no letter with iota subscript is in the text. -/
theorem C72_upper_partial (cps : List Nat) (h : ∀ n ∈ iotas, n ∉ cps) : MapTable.upper.apply (MapTable.upper.apply cps) = MapTable.upper.apply cps :=
  Pages.apply_absorbs upper_ok cps h

/-- C72 violated: UPPER makes U+1FBC of U+1FB3 and U+0391 U+0399 of that; the same with each letter with iota subscript. -/
theorem C72_upper_violated : MapTable.upper.apply [0x1FB3] = [0x1FBC] ∧ MapTable.upper.apply [0x1FBC] = [0x391, 0x399] ∧
    ∀ n ∈ iotas, MapTable.upper.apply (MapTable.upper.apply [n]) ≠ MapTable.upper.apply [n] := by decide +kernel

/-! ### C73: case folding -/

theorem fold_lower_ok : MapTable.casefold.absorbs MapTable.casefoldCuts MapTable.lower MapTable.lowerCuts [0x130] = true := by decide +kernel
theorem fold_upper_ok : MapTable.casefold.absorbs MapTable.casefoldCuts MapTable.upper MapTable.upperCuts [0x131] = true := by decide +kernel

/-- C73.  A text and its lower case are folded to the same (unless U+0130, capital I with dot, is in it). -/
theorem C73_lower_partial (cps : List Nat) (h : 0x130 ∉ cps) : MapTable.casefold.apply (MapTable.lower.apply cps) = MapTable.casefold.apply cps :=
  Pages.apply_absorbs fold_lower_ok cps (by simpa using h)

/-- C73.  A text and its upper case are folded to the same (unless U+0131, dotless i, is in it). -/
theorem C73_upper_partial (cps : List Nat) (h : 0x131 ∉ cps) : MapTable.casefold.apply (MapTable.upper.apply cps) = MapTable.casefold.apply cps :=
  Pages.apply_absorbs fold_upper_ok cps (by simpa using h)

/-- C73.  So texts with the same lower case, or with the same upper case, are folded to the same. -/
theorem C73_same (a b : List Nat) (ha : 0x130 ∉ a ∧ 0x131 ∉ a) (hb : 0x130 ∉ b ∧ 0x131 ∉ b)
    (h : MapTable.lower.apply a = MapTable.lower.apply b ∨ MapTable.upper.apply a = MapTable.upper.apply b) :
    MapTable.casefold.apply a = MapTable.casefold.apply b := by
  rcases h with h | h
  · rw [← C73_lower_partial a ha.1, h, C73_lower_partial b hb.1]
  · rw [← C73_upper_partial a ha.2, h, C73_upper_partial b hb.2]

/-- C73 violated for the two: the lower case of U+0130 has lost its dot, the upper case of U+0131 is a plain I. -/
theorem C73_violated : MapTable.casefold.apply (MapTable.lower.apply [0x130]) ≠ MapTable.casefold.apply [0x130] ∧
    MapTable.casefold.apply (MapTable.upper.apply [0x131]) ≠ MapTable.casefold.apply [0x131] := by decide +kernel

/-! ### C74: width -/

theorem half_full_ok : MapTable.half.absorbs MapTable.halfCuts MapTable.full MapTable.fullCuts [] = true := by decide +kernel
theorem full_half_ok : MapTable.full.absorbs MapTable.fullCuts MapTable.half MapTable.halfCuts [] = true := by decide +kernel

/-- C74.  HALF gives the same whether or not FULL came before, and the other way round. -/
theorem C74_absorb (cps : List Nat) : MapTable.half.apply (MapTable.full.apply cps) = MapTable.half.apply cps ∧
    MapTable.full.apply (MapTable.half.apply cps) = MapTable.full.apply cps :=
  ⟨Pages.apply_absorbs half_full_ok cps (by simp), Pages.apply_absorbs full_half_ok cps (by simp)⟩

/-- C74.  A text in half width is given back by HALF after FULL, one in full width by FULL after HALF. -/
theorem C74_round_trip (cps : List Nat) : (MapTable.half.apply cps = cps → MapTable.half.apply (MapTable.full.apply cps) = cps) ∧
    (MapTable.full.apply cps = cps → MapTable.full.apply (MapTable.half.apply cps) = cps) := by
  obtain ⟨h1, h2⟩ := C74_absorb cps
  exact ⟨fun h => h1.trans h, fun h => h2.trans h⟩

theorem ascii_width_ok : ∀ i, i < 0x5E → MapTable.full.find (0x21 + i) = some [0xFF01 + i] ∧ MapTable.half.find (0xFF01 + i) = some [0x21 + i] := by decide +kernel

/-- C74.  On ASCII: the space and `!`..`~` become U+3000 and U+FF01..U+FF5E and come back. -/
theorem C74_ascii (n : Nat) (h1 : 0x20 ≤ n) (h2 : n ≤ 0x7E) :
    MapTable.full.apply [n] = [if n = 0x20 then 0x3000 else n + 0xFEE0] ∧ MapTable.half.apply (MapTable.full.apply [n]) = [n] := by
  by_cases h : n = 0x20
  · subst h; decide +kernel
  · obtain ⟨k1, k2⟩ := ascii_width_ok (n - 0x21) (by omega)
    rw [show 0x21 + (n - 0x21) = n by omega] at k1 k2
    have e1 : MapTable.full.apply [n] = [0xFF01 + (n - 0x21)] := by simp [Pages.apply, k1]
    rw [e1, if_neg h]
    refine ⟨by congr 1; omega, ?_⟩
    simp [Pages.apply, k2]

/-! ### The hypotheses can be met -/

/-- The conversion `UTF-8:UPPER:CASEFOLD:UTF-16LE`, with compiled files. -/
def utf8Fold (k : Nat) : Static Utf8.Priv :=
  match k with
  | 1 => utf8To16 1
  | 2 => ⟨.inter, fun _ => Verif.MkTable.compiled _ (Verif.MkTable.lines (symbolRules MapTable.upper.data)), 0⟩
  | 3 => ⟨.inter, fun _ => Verif.MkTable.compiled _ (Verif.MkTable.lines (symbolRules MapTable.casefold.data)), 0⟩
  | _ => utf8To16 2

theorem utf8Fold_maps : ∀ k (h : k < [MapTable.upper, MapTable.casefold].length), Maps (utf8Fold (k + 2)) [MapTable.upper, MapTable.casefold][k] := by
  intro k h
  match k, h with
  | 0, _ =>
    obtain ⟨h2, h3⟩ := mapTables_fine (t := MapTable.upper) (by simp [mapTables])
    exact C72_compiled h2 h3 rfl rfl rfl
  | 1, _ =>
    obtain ⟨h2, h3⟩ := mapTables_fine (t := MapTable.casefold) (by simp [mapTables])
    exact C72_compiled h2 h3 rfl rfl rfl

-- `Aß`, in pieces cut inside the second character: `ass`.
example : ∃ ds ins', Session utf8Fold (({ ph := fun _ => { priv := fun _ => .zero }, phasen := 4 } : Ins Utf8.Priv).init utf8Fold (fun _ _ _ => .zero))
      ([⟨some [0x41, 0xC3], false, .file⟩] ++ [⟨some [0x9F], true, .file⟩]) ds ins' ∧
    (ds.map (fun d => d.bytes)).flatten ++ ins'.pending.flatten = [0x61, 0, 0x73, 0, 0x73, 0] ∧ ins'.ierr = 0 ∧ ins'.oerr = 0 := by
  have e : chained [MapTable.upper, MapTable.casefold] [0x41, 0xDF] = [0x61, 0x73, 0x73] := by decide +kernel
  obtain ⟨ds, ins', k1, k2, k3, k4⟩ := C72_maps (st := utf8Fold) (ip := fun _ _ _ => .zero) (ins := { ph := fun _ => { priv := fun _ => .zero }, phasen := 4 })
    (a := .utf8) (b := .utf16 true) [MapTable.upper, MapTable.casefold] rfl (utf8To16_source _ rfl) (.utf16 true ⟨rfl, rfl, rfl⟩) utf8Fold_maps
    [0x41, 0xDF] (by intro cp h; simp at h; rcases h with rfl | rfl <;> simp [Source.Has, Scalar, Surrogate])
    [⟨some [0x41, 0xC3], false, .file⟩] ⟨some [0x9F], true, .file⟩ (by simp) rfl (by simp) (by decide)
  rw [e] at k2 k4
  exact ⟨ds, ins', k1, k2, k3, k4⟩

end Verif.Props
