import Verif.Model.Cp932
import Verif.Model.Cp125xTable
import Verif.Props.Bytes
import Verif.Props.Sjis
/-
C103: CP932, which is only read.
-/
namespace Verif.Props
open Verif.Spec
open Verif.Engine hiding Datum step

variable {π : Type}

namespace Cp932

/-- The phase reads CP932: `ASCII,_CP932` (/repo/modules/from/alias). -/
structure Reads (s : Static π) : Prop where
  isFrom : s.type = .from_
  two : s.codecn = 1
  ascii : Represents (s.codecs 0) Ascii.fromRules
  table : Represents (s.codecs 1) Verif.Cp932.fromRules

/-- What a code of CP932 stands for, as a datum. -/
def datumOf (c : Nat) : Option Datum := (Charsets.cp932.char c).map fun u => if c < 0x80 then uniDatum u else Verif.Cp932.datum c u

set_option maxRecDepth 100000 in
theorem ok : (Charset.fine Charsets.cp932 && Charset.high Charsets.cp932 && Charset.small Charsets.cp932) = true := by decide +kernel

theorem zero_rows : (Verif.Cp932.zeros.map Charsets.cp932.reads.find) = [0xB4, 0xA8, 0xB1, 0xD7, 0xF7, 0xB0, 0xA7, 0xB6].map some := by decide +kernel

theorem fine : Charsets.cp932.Fine := by
  have := ok
  simp only [Bool.and_eq_true] at this
  exact Charset.fine_iff this.1.1

theorem high : Charset.high Charsets.cp932 = true := by
  have := ok
  simp only [Bool.and_eq_true] at this
  exact this.1.2

theorem small : Charset.small Charsets.cp932 = true := by
  have := ok
  simp only [Bool.and_eq_true] at this
  exact this.2

/-- The character of a code with a zero byte is one of Latin-1. -/
theorem zero_char {c u : Nat} (hc : c ∈ Verif.Cp932.zeros) (h : Charsets.cp932.reads.find c = some u) : u ∈ [0xB4, 0xA8, 0xB1, 0xD7, 0xF7, 0xB0, 0xA7, 0xB6] := by
  have h1 : Charsets.cp932.reads.find c ∈ Verif.Cp932.zeros.map Charsets.cp932.reads.find := List.mem_map_of_mem hc
  rw [zero_rows, h] at h1
  obtain ⟨v, hv, e⟩ := List.mem_map.1 h1
  simp only [Option.some.injEq] at e
  exact e ▸ hv

/-- The rules are those of the character set, with other data. -/
theorem from_lookup {p : List Nat} {o : List Datum} (h : lookup Verif.Cp932.fromRules p = some o) :
    ∃ c u, (c, u) ∈ Charsets.cp932.reads.pairs ∧ p = beBytes c ∧ o = [Verif.Cp932.datum c u] := by
  obtain ⟨r, hr, e1, e2⟩ := single_lookup_none.lookup_some_mem h
  obtain ⟨a, ha, rfl⟩ := List.mem_map.1 hr
  exact ⟨a.1, a.2, ha, e1.symm, e2.symm⟩

theorem code_lookup {c u : Nat} (h : Charsets.cp932.reads.find c = some u) : lookup Verif.Cp932.fromRules (beBytes c) = some [Verif.Cp932.datum c u] := by
  have hm := Chart.find_mem h
  refine MkTable.lookup_unique (List.mem_map.2 ⟨_, hm, rfl⟩) ?_
  intro d hd
  obtain ⟨a, ha, e⟩ := List.mem_map.1 hd
  simp only [Prod.mk.injEq] at e
  have := code_inj (fine.codes _ ha).2.1 (fine.codes _ hm).2.1 e.1
  have h2 := Chart.mem_find fine.reads ha
  rw [this, h] at h2
  simp only [Option.some.injEq] at h2
  rw [← e.2, this, ← h2]

theorem from_prefixFree : PrefixFree Verif.Cp932.fromRules := by
  intro p b h
  obtain ⟨c, u, hm, rfl, _⟩ := from_lookup h
  have hx := fromRules_prefixFree fine (beBytes c) [uniDatum u] (by
    rw [fromRules_lookup fine (fine.codes _ hm).2.1, Chart.mem_find fine.reads hm]; rfl)
  rw [extendable, List.any_eq_false] at hx ⊢
  intro r hr
  obtain ⟨a, ha, rfl⟩ := List.mem_map.1 hr
  exact hx (beBytes a.1, [uniDatum a.2]) (List.mem_map.2 ⟨a, ha, rfl⟩)

theorem datum_bytes (c : Nat) {u : Nat} (h : c ∈ Verif.Cp932.zeros → u < 256) : IsBytes (Verif.Cp932.datum c u) := by
  unfold Verif.Cp932.datum
  split
  · rename_i hc
    intro b hb
    have := h (List.contains_iff_mem.1 hc)
    simp only [List.mem_cons, List.not_mem_nil, or_false] at hb
    omega
  · exact uniDatum_bytes _

theorem zero_small {c u : Nat} (hm : (c, u) ∈ Charsets.cp932.reads.pairs) (hc : c ∈ Verif.Cp932.zeros) : u < 256 := by
  have := zero_char hc (Chart.mem_find fine.reads hm)
  simp only [List.mem_cons, List.not_mem_nil, or_false] at this
  omega

theorem from_data : ∀ r ∈ Verif.Cp932.fromRules, r.2 ≠ [] ∧ ∀ d ∈ r.2, IsBytes d := by
  intro r hr
  obtain ⟨a, ha, rfl⟩ := List.mem_map.1 hr
  refine ⟨by simp, ?_⟩
  intro d hd
  simp only [List.mem_singleton] at hd
  subst hd
  exact datum_bytes _ (zero_small ha)

/-- Codes as pieces. -/
theorem pieces {cs : List Nat} {ds : List Datum} (h : cs.map datumOf = ds.map some) :
    Pieces (fun j => if j = 0 then Ascii.fromRules else Verif.Cp932.fromRules) 1 (codeBytes cs) (cs.zipWith (fun c d => (beBytes c, d)) ds) ∧ IsBytes (codeBytes cs) := by
  induction cs generalizing ds with
  | nil =>
    cases ds with
    | nil => exact ⟨.nil, by intro b hb; simp [codeBytes] at hb⟩
    | cons d ds => simp at h
  | cons c cs ih =>
    cases ds with
    | nil => simp at h
    | cons d ds =>
      simp only [List.map_cons, List.cons.injEq] at h
      obtain ⟨i1, i2⟩ := ih h.2
      have e : codeBytes (c :: cs) = beBytes c ++ codeBytes cs := rfl
      rw [e]
      have hd := h.1
      unfold datumOf at hd
      by_cases hr : 1 ≤ c ∧ c < 0x80
      · have hc : Charsets.cp932.char c = some c := by unfold Charset.char; rw [if_pos hr]
        rw [hc, Option.map_some, if_pos hr.2] at hd
        simp only [Option.some.injEq] at hd
        have e1 : beBytes c = [c] := be1 (by omega)
        refine ⟨.cons (j := 0) (by omega) (by rw [e1]; simp) ?_ (fun i hi => absurd hi (by omega)) i1, ?_⟩
        · simp only [if_true]
          rw [e1, ← hd, uniDatum, be1 (by omega)]
          exact (fromAscii_lookup _ _).2 ⟨c, hr.1, hr.2, rfl, rfl⟩
        · rw [e1]
          intro b hb
          rcases List.mem_append.1 hb with hb | hb
          · simp at hb; omega
          · exact i2 b hb
      · cases hf : Charsets.cp932.reads.find c with
        | none =>
          unfold Charset.char at hd
          rw [if_neg hr, hf] at hd
          simp at hd
        | some u =>
          have hc : Charsets.cp932.char c = some u := by unfold Charset.char; rw [if_neg hr, hf]
          have hm := Chart.find_mem hf
          have hh := high_pairs high hm
          simp only at hh
          rw [hc, Option.map_some, if_neg (by omega)] at hd
          simp only [Option.some.injEq] at hd
          have h2 := (fine.codes _ hm).2.1
          simp only at h2
          obtain ⟨m1, m2⟩ := code_bytes h2
          refine ⟨.cons (j := 1) (by omega) (by rcases m2 with ⟨_, m⟩ | ⟨_, m⟩ <;> rw [m] <;> simp) ?_ ?_ i1, ?_⟩
          · simp only [Nat.one_ne_zero, if_false]
            rw [← hd]
            exact code_lookup hf
          · intro i hi r hr'
            obtain rfl : i = 0 := by omega
            simp only [if_true] at hr'
            obtain ⟨b, u', e3, hb⟩ : ∃ b u', beBytes c = b :: u' ∧ 0x80 ≤ b := by
              rcases m2 with ⟨_, m⟩ | ⟨_, m⟩ <;> rw [m]
              · exact ⟨c, [], rfl, by omega⟩
              · exact ⟨_, _, rfl, by omega⟩
            rw [e3]
            obtain ⟨q, q1, q2, rfl⟩ := fromAscii_mem hr'
            rintro ⟨t, ht⟩
            simp at ht
            omega
          · intro b hb
            rcases List.mem_append.1 hb with hb | hb
            · exact m1 b hb
            · exact i2 b hb

theorem pieces_snd {cs : List Nat} {ds : List Datum} (h : cs.map datumOf = ds.map some) : (cs.zipWith (fun c d => (beBytes c, d)) ds).map Prod.snd = ds := by
  have hl : cs.length = ds.length := by simpa using congrArg List.length h
  clear h
  induction cs generalizing ds with
  | nil => cases ds <;> simp at hl ⊢
  | cons c cs ih =>
    cases ds with
    | nil => simp at hl
    | cons d ds => simp only [List.zipWith_cons_cons, List.map_cons]; rw [ih (by simpa using hl)]

end Cp932
open Cp932 Keep

/-- C103.  CP932, given as codes and cut in any way, is read as the data of its rule file. -/
theorem C103_data {s : Static π} (h : Reads s) (p : Nat → π) {cs : List Nat} {ds : List Datum} (hc : cs.map datumOf = ds.map some) :
    IsBytes (codeBytes cs) ∧ ∃ D : Proc π, Realises s (fun q => q = p) D ∧
      ∀ xs, xs.flatten = codeBytes cs → D.out xs = ds ∧ D.inErrors xs = 0 ∧ D.outErrors xs = 0 ∧ D.ok xs := by
  obtain ⟨h1, h2⟩ := pieces hc
  obtain ⟨D, d1, d2⟩ := tables_pieces (s := s) (Rs := fun j => if j = 0 then Ascii.fromRules else Verif.Cp932.fromRules) h.isFrom (by
    intro j hj
    rw [h.two] at hj
    obtain rfl | rfl : j = 0 ∨ j = 1 := by omega
    · exact ⟨h.ascii, fromAscii_prefixFree, ascii_data⟩
    · exact ⟨h.table, from_prefixFree, from_data⟩) p (by rw [h.two]; exact h1)
  rw [pieces_snd hc] at d2
  exact ⟨h2, D, d1, d2⟩

/-- C103.  Without the eight codes, the text is read as any other character set reads it: so everything behind takes it (C63, C72, C79, ..). -/
theorem C103_reads_partial {s : Static π} (h : Reads s) (p : Nat → π) {cs cps : List Nat} (hc : cs.map Charsets.cp932.char = cps.map some)
    (hz : ∀ c ∈ cs, c ∉ Verif.Cp932.zeros) : ReadsAs s p (codeBytes cs) cps := by
  refine C103_data h p (ds := textData cps) ?_
  unfold textData
  clear h
  induction cs generalizing cps with
  | nil => cases cps <;> simp at hc ⊢
  | cons c cs ih =>
    cases cps with
    | nil => simp at hc
    | cons u cps =>
      simp only [List.map_cons, List.cons.injEq] at hc ⊢
      refine ⟨?_, ih hc.2 fun c hc => hz c (by simp [hc])⟩
      unfold datumOf
      rw [hc.1, Option.map_some]
      have : Verif.Cp932.datum c u = uniDatum u := by
        unfold Verif.Cp932.datum
        rw [if_neg]
        rw [List.contains_iff_mem]
        exact hz c (by simp)
      rw [this]
      simp

/-- C103.  `CP932:UTF-8`, `CP932:UTF-16`, `CP932:UTF-32`, `CP932:UCS-2` (if it has them): every text comes out right, these eight codes too. -/
theorem C103_unicode {st : Nat → Static π} {ip : Nat → Nat → π → π} {ins : Ins π} {b : Target} (hn : ins.phasen = 2)
    (ha : Reads (st 1)) (hb : b.Is (st 2)) (hu : b = .utf8 ∨ ∃ le, b = .utf16 le ∨ b = .utf32 le)
    (cs cps : List Nat) (hcs : cs.map Charsets.cp932.char = cps.map some)
    (as : List Arg) (l : Arg) (h1 : ∀ y ∈ as, y.flush = false) (h2 : l.flush = true) (h3 : ∀ y ∈ as ++ [l], y.mode ≠ .null)
    (h4 : ((as ++ [l]).filterMap (fun y => y.input)).flatten = codeBytes cs) :
    ∃ ds ins', Session st (ins.init st ip) (as ++ [l]) ds ins' ∧
      (ds.map (fun d => d.bytes)).flatten ++ ins'.pending.flatten = cps.flatMap b.enc ∧ ins'.ierr = ins.ierr ∧ ins'.oerr = ins.oerr := by
  obtain ⟨m, fs, hE, e1, e2⟩ : ∃ m fs, EncoderPhase (st 2) .to_ m fs ∧ (∀ cp, Scalar cp → firstOf fs (uniDatum cp) 0 (m + 1) = some [b.enc cp]) ∧
      ∀ u ∈ [0xB4, 0xA8, 0xB1, 0xD7, 0xF7, 0xB0, 0xA7, 0xB6], firstOf fs [1, 0, u] 0 (m + 1) = some [b.enc u] := by
    cases hb with
    | utf8 g1 g2 g3 g4 =>
      refine ⟨1, fun j => if j = 0 then uniEnc Utf8.encode else fun d => lookup Ascii.toRules [d], ⟨g1, by simp, g2, ?_⟩, ?_, ?_⟩
      · intro j hj
        obtain rfl | rfl : j = 0 ∨ j = 1 := by omega
        · exact .call _ g3 utf8Encode_bytes
        · exact .table _ g4 toAscii_good.1 toAscii_good.2
      · rintro cp ⟨k1, k2, k3⟩
        simp only [firstOf, uniEnc_uni, if_true]
        by_cases hc : cp < 0x80
        · rw [C14_refuses cp (.inl hc)]
          have e2 : uniDatum cp = [1, cp] := by rw [uniDatum, be1 (by omega)]
          simp only [e2, Target.enc, Spec.utf8, if_pos hc]
          have := toAscii_lookup cp k1 hc
          simp [this]
        · rw [C14_encode cp (by omega) (by omega)]
          rfl
      · decide +kernel
    | utf16 le h =>
      refine ⟨0, _, only_phase h (encode16_bytes le), ?_, ?_⟩
      · rintro cp ⟨k1, k2, k3⟩
        simp only [firstOf, uniEnc_uni, C18_encode le cp k2, Target.enc]
      · cases le <;> decide +kernel
    | utf32 le h =>
      refine ⟨0, _, only_phase h (encode32_bytes le), ?_, ?_⟩
      · rintro cp ⟨k1, k2, k3⟩
        simp only [firstOf, uniEnc_uni, C20_encode le cp (by omega), Target.enc]
      · cases le <;> decide +kernel
    | ucs2 => simp at hu
    | table => simp at hu
    | tables => simp at hu
  obtain ⟨ds, hds, hdl⟩ : ∃ ds : List Datum, cs.map datumOf = ds.map some ∧
      ∃ l : List (Datum × List Nat), l.map Prod.fst = ds ∧ l.flatMap Prod.snd = cps.flatMap b.enc ∧
        ∀ i ∈ l, i.1 ≠ [] ∧ i.1 ≠ [1] ∧ firstOf fs i.1 0 (m + 1) = some [i.2] := by
    clear h4
    induction cs generalizing cps with
    | nil =>
      cases cps with
      | nil => exact ⟨[], rfl, [], rfl, rfl, by simp⟩
      | cons u cps => simp at hcs
    | cons c cs ih =>
      cases cps with
      | nil => simp at hcs
      | cons u cps =>
        simp only [List.map_cons, List.cons.injEq] at hcs
        obtain ⟨ds, i1, l, i2, i3, i4⟩ := ih cps hcs.2
        have hu : ∃ d : Datum, datumOf c = some d ∧ d ≠ [] ∧ d ≠ [1] ∧ firstOf fs d 0 (m + 1) = some [b.enc u] := by
          unfold datumOf
          rw [hcs.1, Option.map_some]
          have hc := hcs.1
          unfold Charset.char at hc
          split at hc
          · rename_i hr
            simp only [Option.some.injEq] at hc
            subst hc
            exact ⟨_, by rw [if_pos hr.2], (uniDatum_ne c).1, (uniDatum_ne c).2, e1 c (by unfold Scalar Surrogate; omega)⟩
          · have hm := Chart.find_mem hc
            have hs := (fine.codes _ hm).2.2
            have hh := high_pairs high hm
            simp only at hs hh
            rw [if_neg (by omega)]
            unfold Verif.Cp932.datum
            split
            · rename_i hz
              exact ⟨_, rfl, by simp, by simp, e2 u (zero_char (List.contains_iff_mem.1 hz) hc)⟩
            · exact ⟨_, rfl, (uniDatum_ne u).1, (uniDatum_ne u).2, e1 u hs⟩
        obtain ⟨d, d1, d2, d3, d4⟩ := hu
        refine ⟨d :: ds, by rw [List.map_cons, List.map_cons, d1, i1], (d, b.enc u) :: l, by rw [List.map_cons, i2], by rw [List.flatMap_cons, List.flatMap_cons, i3], ?_⟩
        intro i hi
        rcases List.mem_cons.1 hi with rfl | hi
        · exact ⟨d2, d3, d4⟩
        · exact i4 i hi
  obtain ⟨l', k1, k2, k3⟩ := hdl
  obtain ⟨hT, D, hD, d1⟩ := C103_data ha (initPriv st ip ins 1) hds
  have := items_session hn hD hE hT (l := l') (by rw [k1]; exact d1) k3 as l h1 h2 h3 h4
  rw [k2] at this
  exact this

theorem lost_session {st : Nat → Static π} {ip : Nat → Nat → π → π} {ins : Ins π} (hn : ins.phasen = 2) {D : Proc π}
    (hD : Realises (st 1) (fun q => q = initPriv st ip ins 1) D) {m : Nat} {fs : Nat → Datum → Option (List Datum)} (hE : EncoderPhase (st 2) .to_ m fs)
    {T : List Nat} (hT : IsBytes T) {d : Datum}
    (h : ∀ ds, ds.flatten = T → D.out ds = [d] ∧ D.inErrors ds = 0 ∧ D.outErrors ds = 0 ∧ D.ok ds)
    (hd1 : d ≠ []) (hd2 : d ≠ [1]) (hl : firstOf fs d 0 (m + 1) = none)
    (as : List Arg) (a : Arg) (h1 : ∀ x ∈ as, x.flush = false) (h2 : a.flush = true) (h3 : ∀ x ∈ as ++ [a], x.mode ≠ .null)
    (h4 : ((as ++ [a]).filterMap (fun x => x.input)).flatten = T) :
    ∃ ds ins', Session st (ins.init st ip) (as ++ [a]) ds ins' ∧
      (ds.map (fun d => d.bytes)).flatten ++ ins'.pending.flatten = [] ∧ ins'.ierr = ins.ierr ∧ ins'.oerr = ins.oerr + 1 := by
  have hch : Converts st ip ins [D, encoderProc π false (fun d => firstOf fs d 0 (m + 1))] := by
    refine chain_converts ⟨by simp, ?_, ?_⟩ (by simp [hn])
    · intro k hk
      match k, hk with
      | 0, _ => exact hD
      | 1, _ => exact encoder_real hE _
    · intro k hk _
      match k, hk with
      | 0, _ => rfl
  have hb : ∀ x ∈ as ++ [a], ∀ c ∈ x.input, IsBytes c := by
    intro x hx c hc y hy
    refine hT y ?_
    rw [← h4]
    exact List.mem_flatten.2 ⟨c, List.mem_filterMap.2 ⟨x, hx, hc⟩, hy⟩
  obtain ⟨f1, f2, f3, f4⟩ := h _ h4
  have hne : nonEmpty [d] = [d] := by
    refine List.filter_eq_self.2 ?_
    intro e he
    simp only [List.mem_singleton] at he
    subst he
    cases e with
    | nil => exact absurd rfl hd1
    | cons _ _ => rfl
  obtain ⟨ds, ins', k1, k2, _, k4, k5, _⟩ := hch as a h1 h2 h3 hb _ rfl ⟨.inl f2, f4, rfl, by
    rw [f1]
    simp only [encoderProc, hne]
    intro e he
    simp only [List.mem_singleton] at he
    subst he
    exact hd2, trivial⟩
  refine ⟨ds, ins', k1, ?_, ?_, ?_⟩
  · rw [k2]
    simp only [runProcs, f1]
    simp only [encoderProc, hne]
    simp [hl]
  · rw [k4]
    simp only [runIn, f2, Nat.zero_add]
    simp [encoderProc]
  · rw [k5]
    simp only [runOut, f1, f3, Nat.zero_add, Nat.add_zero]
    simp only [encoderProc, hne, Bool.false_eq_true, if_false]
    simp [hl]

/-- C103 violated.  `CP932:X`: each of the eight codes is lost, and counted as an error, whether or not the set X has the character (unless its file
happens to have a line `0100..` for it). -/
theorem C103_lost_violated {st : Nat → Static π} {ip : Nat → Nat → π → π} {ins : Ins π} {x : Charset} (hx : x.fine = true) (hn : ins.phasen = 2)
    (ha : Reads (st 1)) (hb : WritesCharset (st 2) x) {c u : Nat} (hc : c ∈ Verif.Cp932.zeros) (hu : Charsets.cp932.char c = some u)
    (ho : ∀ r ∈ x.odd, r.1 ≠ u)
    (as : List Arg) (l : Arg) (h1 : ∀ y ∈ as, y.flush = false) (h2 : l.flush = true) (h3 : ∀ y ∈ as ++ [l], y.mode ≠ .null)
    (h4 : ((as ++ [l]).filterMap (fun y => y.input)).flatten = codeBytes [c]) :
    ∃ ds ins', Session st (ins.init st ip) (as ++ [l]) ds ins' ∧
      (ds.map (fun d => d.bytes)).flatten ++ ins'.pending.flatten = [] ∧ ins'.ierr = ins.ierr ∧ ins'.oerr = ins.oerr + 1 := by
  have hf := Charset.fine_iff hx
  have hbig : ∀ c ∈ Verif.Cp932.zeros, 0x80 ≤ c := by decide
  have hcb := hbig c hc
  obtain ⟨hT, D, hD, d1⟩ := C103_data ha (initPriv st ip ins 1) (cs := [c]) (ds := [[1, 0, u]]) (by
    unfold datumOf
    rw [List.map_cons, hu, Option.map_some, if_neg (by omega), Verif.Cp932.datum, if_pos (List.contains_iff_mem.2 hc)]
    rfl)
  have hE : EncoderPhase (st 2) .to_ 1 (fun j d => lookup (if j = 0 then x.toRules else Ascii.toRules) [d]) := by
    refine ⟨hb.isTo, by simp, hb.two, ?_⟩
    intro j hj
    obtain rfl | rfl : j = 0 ∨ j = 1 := by omega
    · exact .table _ hb.table (toRules_good hf).1 (toRules_good hf).2
    · exact .table _ hb.ascii toAscii_good.1 toAscii_good.2
  refine lost_session hn hD hE hT d1 (by simp) (by simp) ?_ as l h1 h2 h3 h4
  have l1 : lookup x.toRules [[1, 0, u]] = none := by
    cases hl : lookup x.toRules [[1, 0, u]] with
    | none => rfl
    | some o =>
      obtain ⟨r, hr, e, _⟩ := Verif.Engine.lookup_mem hl
      unfold Charset.toRules at hr
      rcases List.mem_append.1 hr with hr | hr
      · obtain ⟨a, ha, rfl⟩ := List.mem_map.1 hr
        have hs := (hf.chars _ ha).1
        simp only [List.cons.injEq, and_true] at e
        unfold Scalar at hs
        by_cases k1 : a.1 < 0x100
        · rw [uniDatum, be1 k1] at e; simp at e
        · by_cases k2 : a.1 < 0x10000
          · rw [uniDatum, be2 (by omega) k2] at e; simp at e; omega
          · rw [uniDatum, be3 (by omega) (by omega)] at e; simp at e
      · obtain ⟨a, ha, rfl⟩ := List.mem_map.1 hr
        simp only [List.cons.injEq, and_true, true_and] at e
        exact absurd e (ho a ha)
  have l2 : lookup Ascii.toRules [[1, 0, u]] = none := by
    cases hl : lookup Ascii.toRules [[1, 0, u]] with
    | none => rfl
    | some o =>
      obtain ⟨r, hr, e, _⟩ := Verif.Engine.lookup_mem hl
      have hlen : (Ascii.toRules.all fun r => r.1.all fun d => d.length == 2 || d == [1, 2, 0xDC]) = true := by decide +kernel
      have := List.all_eq_true.1 (List.all_eq_true.1 hlen r hr) [1, 0, u] (by rw [e]; simp)
      simp at this
  rw [firstOf_range]
  simp [l1, l2, List.range_succ]

/-- The conversion `CP932:SHIFT-JIS` with compiled files. -/
def cp932Conv (k : Nat) : Static Unit :=
  if k = 1 then ⟨.from_, fun j => if j = 0 then trieCodec Ascii.fromRules else Verif.MkTable.compiled _ (Verif.MkTable.lines Verif.Cp932.fromRules), 1⟩
  else charsetConv Charsets.cp932 Charsets.shiftJis 2

theorem rows_length {x : Charset} (g : Nat × Nat → List Nat × List Datum) (h : Charset.small x = true) : (x.reads.pairs.map g).length ≤ 60000 := by
  simp only [Charset.small, Bool.and_eq_true, Nat.ble_eq] at h
  rw [List.length_map, pairs_length]
  exact h.1

/-- C103.  The compiled file makes such a phase. -/
theorem C103_compiled : Represents (Verif.MkTable.compiled π (Verif.MkTable.lines Verif.Cp932.fromRules)) Verif.Cp932.fromRules := by
  refine compiled_short _ ?_ (rows_length _ small)
  intro r hr
  obtain ⟨a, ha, rfl⟩ := List.mem_map.1 hr
  have hk := fine.codes _ ha
  have hl := code_length hk.2.1
  refine ⟨⟨hl.2, hl.1, fun c hc => Nat.le_of_lt ((code_bytes hk.2.1).1 c hc)⟩, _, rfl, ?_, ?_, datum_bytes _ (zero_small ha)⟩
  · unfold Verif.Cp932.datum
    split
    · simp
    · exact (uniDatum_ne _).1
  · unfold Verif.Cp932.datum
    split
    · simp
    · exact scalar_length hk.2.2

theorem cp932Conv_reads : Reads (cp932Conv 1) :=
  ⟨rfl, rfl, trieAscii, C103_compiled⟩

theorem cp932Conv_writes : WritesCharset (cp932Conv 2) Charsets.shiftJis := by
  have e : cp932Conv 2 = charsetConv Charsets.cp932 Charsets.shiftJis 2 := by unfold cp932Conv; rw [if_neg (by decide)]
  rw [e]
  exact charsetConv_writes C76_shiftJis_partial.fine C76_shiftJis_partial.small

-- The multiplication sign, 81 7E in CP932 and in SHIFT-JIS, does not get from the one to the other.
example : Charsets.shiftJis.code 0xD7 = some 0x817E ∧
    ∃ ds ins', Session cp932Conv (({ ph := fun _ => { priv := fun _ => () }, phasen := 2 } : Ins Unit).init cp932Conv (fun _ _ t => t))
      ([⟨some [0x81], false, .file⟩] ++ [⟨some [0x7E], true, .file⟩]) ds ins' ∧
    (ds.map (fun d => d.bytes)).flatten ++ ins'.pending.flatten = [] ∧ ins'.ierr = 0 ∧ ins'.oerr = 1 := by
  have hok := C76_shiftJis_partial
  refine ⟨by decide +kernel, ?_⟩
  obtain ⟨ds, ins', k1, k2, k3, k4⟩ := C103_lost_violated (st := cp932Conv) (ip := fun _ _ t => t) (x := Charsets.shiftJis)
    (ins := { ph := fun _ => { priv := fun _ => () }, phasen := 2 }) hok.fine rfl cp932Conv_reads cp932Conv_writes
    (c := 0x817E) (u := 0xD7) (by decide) (by decide +kernel) (by decide)
    [⟨some [0x81], false, .file⟩] ⟨some [0x7E], true, .file⟩ (by simp) rfl (by simp) (by simp [codeBytes, be2])
  exact ⟨ds, ins', k1, k2, k3, k4⟩

/-- The code pages that are only read: what C76_reads asks for. -/
theorem C103_windows : ∀ x ∈ [Charsets.cp1254, Charsets.cp1255, Charsets.cp1256, Charsets.cp1257, Charsets.cp1258],
    Charset.fine x = true ∧ Charset.high x = true ∧ Charset.small x = true ∧
      ∀ c d u, x.char c = some u → x.char d = some u → c = d := by
  have h : ([Charsets.cp1254, Charsets.cp1255, Charsets.cp1256, Charsets.cp1257, Charsets.cp1258].all fun x =>
      Charset.fine x && Charset.high x && Charset.small x && distinct (x.reads.pairs.map Prod.snd) && x.reads.pairs.all fun r => Nat.ble 0x80 r.2 && Nat.ble 0x80 r.1) = true := by decide +kernel
  intro x hx
  have := List.all_eq_true.1 h x hx
  simp only [Bool.and_eq_true, List.all_eq_true, Nat.ble_eq] at this
  obtain ⟨⟨⟨⟨h1, h2⟩, h3⟩, h4⟩, h5⟩ := this
  refine ⟨h1, h2, h3, ?_⟩
  intro c d u hc hd
  unfold Charset.char at hc hd
  split at hc <;> split at hd
  · simp only [Option.some.injEq] at hc hd; omega
  · have := h5 _ (Chart.find_mem hd)
    simp only [Option.some.injEq] at hc this; omega
  · have := h5 _ (Chart.find_mem hc)
    simp only [Option.some.injEq] at hd this; omega
  · have e := distinct_inj Prod.snd h4 _ (Chart.find_mem hc) _ (Chart.find_mem hd) rfl
    simp only [Prod.mk.injEq, and_true] at e
    exact e.symm

end Verif.Props
