import Verif.Model.Cccii
import Verif.Props.Bytes
import Verif.Props.CcciiBack
/-
C106: CCCII.
-/
namespace Verif.Props
open Verif.Spec
open Verif.Engine hiding Datum step

variable {π : Type}

namespace Cccii
open Verif.Cccii

/-- The character of a code. -/
def char (c : Nat) : Option Nat := reads.find c

/-- The code of a character. -/
def code (cp : Nat) : Option Nat := writes.find cp

/-- The phase reads CCCII. -/
structure Reads (s : Static π) : Prop where
  isFrom : s.type = .from_
  one : s.codecn = 0
  table : Represents (s.codecs 0) fromRules

/-- The phase writes CCCII. -/
structure Writes (s : Static π) : Prop where
  isTo : s.type = .to_
  one : s.codecn = 0
  table : Represents (s.codecs 0) (symbolRules toRules)

theorem reads_ok : reads.pairs.Pairwise (fun a b => a.1 < b.1) ∧ ∀ r ∈ reads.pairs, 0x10000 ≤ r.1 ∧ r.1 < 0x1000000 ∧ Scalar r.2 := by
  have h := shape_ok
  unfold shape at h
  simp only [Bool.and_eq_true] at h
  refine ⟨(Chart.rising_pairwise h.1.1.1.1.1).1, ?_⟩
  intro r hr
  obtain ⟨q, hq, hr⟩ := List.mem_flatMap.1 hr
  have := List.all_eq_true.1 h.1.1.1.2 q hq
  simp only [Bool.and_eq_true, Nat.ble_eq] at this
  have hl := Chart.run_lt hr
  exact ⟨by omega, by omega, goodChar_iff (run_vals this.2 r hr)⟩

theorem writes_ok : writes.pairs.Pairwise (fun a b => a.1 < b.1) ∧ ∀ r ∈ writes.pairs, Scalar r.1 ∧ 0x10000 ≤ r.2 ∧ r.2 < 0x1000000 := by
  have h := shape_ok
  unfold shape at h
  simp only [Bool.and_eq_true] at h
  refine ⟨(Chart.rising_pairwise h.1.1.1.1.2).1, ?_⟩
  intro r hr
  obtain ⟨q, hq, hr⟩ := List.mem_flatMap.1 hr
  have := List.all_eq_true.1 h.1.1.2 q hq
  simp only [goodChars, Bool.and_eq_true, Bool.or_eq_true, Nat.ble_eq, Nat.blt_eq] at this
  have hl := Chart.run_lt hr
  have hv := run_vals this.2 r hr
  simp only [Bool.and_eq_true, Nat.ble_eq, Nat.blt_eq] at hv
  exact ⟨by unfold Scalar Surrogate; omega, hv.1, hv.2⟩

theorem lengths : reads.pairs.length ≤ 60000 ∧ writes.pairs.length ≤ 60000 := by
  have h := shape_ok
  unfold shape at h
  simp only [Bool.and_eq_true, Nat.ble_eq] at h
  rw [pairs_length, pairs_length]
  exact ⟨h.1.2, h.2⟩

theorem bytes3 {c : Nat} (h1 : 0x10000 ≤ c) (h2 : c < 0x1000000) : ∃ x y z, beBytes c = [x, y, z] ∧ x < 256 ∧ y < 256 ∧ z < 256 ∧ c = x * 0x10000 + y * 0x100 + z := by
  have := be3 h1 h2
  exact ⟨_, _, _, this, by omega, by omega, by omega, by omega⟩

theorem code3_inj {a b : Nat} (ha : 0x10000 ≤ a ∧ a < 0x1000000) (hb : 0x10000 ≤ b ∧ b < 0x1000000) (h : beBytes a = beBytes b) : a = b := by
  obtain ⟨x, y, z, e, _, _, _, h1⟩ := bytes3 ha.1 ha.2
  obtain ⟨x', y', z', e', _, _, _, h2⟩ := bytes3 hb.1 hb.2
  rw [e, e'] at h
  simp only [List.cons.injEq, and_true] at h
  omega

theorem from_lookup {c : Nat} (hc : 0x10000 ≤ c ∧ c < 0x1000000) : lookup fromRules (beBytes c) = (char c).map fun u => [uniDatum u] := by
  unfold fromRules char Chart.find
  have := reads_ok.2
  revert this
  generalize reads.pairs = W
  intro hw
  induction W with
  | nil => rfl
  | cons r R ih =>
    rw [List.map_cons, lookup, List.find?_cons]
    have h1 := hw r (by simp)
    by_cases e : r.1 = c
    · simp [e]
    · rw [if_neg fun h => e (code3_inj ⟨h1.1, h1.2.1⟩ hc h), show Nat.beq r.1 c = false from by
        cases hb : Nat.beq r.1 c with
        | false => rfl
        | true => exact absurd (Nat.eq_of_beq_eq_true hb) e]
      exact ih fun r h => hw r (by simp [h])

theorem to_lookup {cp : Nat} (hc : cp ≤ 0x10FFFF) : lookup toRules [uniDatum cp] = (code cp).map fun c => [beBytes c] := by
  unfold toRules code Chart.find
  have := writes_ok.2
  revert this
  generalize writes.pairs = W
  intro hw
  induction W with
  | nil => rfl
  | cons r R ih =>
    rw [List.map_cons, lookup, List.find?_cons]
    have h1 := (hw r (by simp)).1
    unfold Scalar at h1
    by_cases e : r.1 = cp
    · simp [e]
    · rw [if_neg ?_, show Nat.beq r.1 cp = false from by
        cases hb : Nat.beq r.1 cp with
        | false => rfl
        | true => exact absurd (Nat.eq_of_beq_eq_true hb) e]
      · exact ih fun r h => hw r (by simp [h])
      · intro h
        simp only [List.cons.injEq, and_true] at h
        exact e (uni_inj (by omega) (by omega) h)

theorem char_ok {c u : Nat} (h : char c = some u) : (0x10000 ≤ c ∧ c < 0x1000000) ∧ Scalar u := by
  have := reads_ok.2 _ (Chart.find_mem h)
  exact ⟨⟨this.1, this.2.1⟩, this.2.2⟩

theorem code_ok {cp c : Nat} (h : code cp = some c) : Scalar cp ∧ 0x10000 ≤ c ∧ c < 0x1000000 := writes_ok.2 _ (Chart.find_mem h)

theorem from_free : PrefixFree fromRules := Keep.oneLength_prefixFree (k := 3) (by
  intro r hr
  obtain ⟨a, ha, rfl⟩ := List.mem_map.1 hr
  have := reads_ok.2 _ ha
  obtain ⟨x, y, z, e, _⟩ := bytes3 this.1 this.2.1
  simp only [e, List.length_cons, List.length_nil])

theorem code_isBytes {c : Nat} (h : 0x10000 ≤ c ∧ c < 0x1000000) : IsBytes (beBytes c) ∧ (beBytes c).length = 3 := by
  obtain ⟨x, y, z, e, h1, h2, h3, _⟩ := bytes3 h.1 h.2
  rw [e]
  refine ⟨?_, rfl⟩
  intro b hb
  simp only [List.mem_cons, List.not_mem_nil, or_false] at hb
  omega

theorem to_good : GoodRules toRules ∧ ∀ r ∈ toRules, r.1.length ≤ 1 := by
  refine ⟨?_, ?_⟩
  · intro r hr
    obtain ⟨a, ha, rfl⟩ := List.mem_map.1 hr
    have := writes_ok.2 _ ha
    obtain ⟨k1, k2⟩ := code_isBytes this.2
    refine ⟨by simp, ?_, by simp, ?_⟩
    · intro d hd
      simp only [List.mem_singleton] at hd
      subst hd
      exact ⟨by simp [uniDatum], uniDatum_bytes _⟩
    · intro d hd
      simp only [List.mem_singleton] at hd
      subst hd
      exact ⟨by intro h0; rw [h0] at k2; simp at k2, k1⟩
  · intro r hr
    obtain ⟨a, ha, rfl⟩ := List.mem_map.1 hr
    simp

theorem from_data : ∀ r ∈ fromRules, r.2 ≠ [] ∧ ∀ d ∈ r.2, IsBytes d := by
  intro r hr
  obtain ⟨a, _, rfl⟩ := List.mem_map.1 hr
  refine ⟨by simp, ?_⟩
  intro x hx
  simp only [List.mem_singleton] at hx
  exact hx ▸ uniDatum_bytes _

end Cccii
open Verif.Props.Cccii Keep
open Verif.Cccii (fromRules toRules)

/-- The bytes of a character. -/
def ccciiEnc (cp : Nat) : List Nat := beBytes ((code cp).getD 0)

/-- C106.  Every character that is written is read back from its code; every character that is read can be written, with a code that is read as the
same character. -/
theorem C106_tables : (∀ cp c, code cp = some c → char c = some cp) ∧ ∀ c cp, char c = some cp → ∃ c', code cp = some c' ∧ char c' = some cp := by
  refine ⟨?_, ?_⟩
  · intro cp c hc
    have := code_ok hc
    unfold Scalar at this
    exact Chart.mem_find reads_ok.1 (backIn_mem back_ok (Chart.find_mem hc) (by omega) (by simp))
  · intro c cp hc
    have := (char_ok hc).2
    unfold Scalar at this
    obtain ⟨c', k1⟩ := kept_mem (Chart.find_mem hc)
    have k2 := backIn_mem back_ok k1 (by omega) (by simp)
    exact ⟨c', Chart.mem_find writes_ok.1 k1, Chart.mem_find reads_ok.1 k2⟩

/-- C106.  Text in CCCII, cut in any way, is read as the characters of its codes, whatever is behind. -/
theorem C106_reads {s : Static π} (h : Reads s) (p : Nat → π) {cs cps : List Nat} (hc : cs.map char = cps.map some) : ReadsAs s p (codeBytes cs) cps := by
  have hp : Pieces (fun _ => fromRules) 0 (codeBytes cs) (cs.zipWith (fun c u => (beBytes c, uniDatum u)) cps) ∧ IsBytes (codeBytes cs) := by
    clear h
    induction cs generalizing cps with
    | nil =>
      cases cps with
      | nil => exact ⟨.nil, by intro b hb; simp [codeBytes] at hb⟩
      | cons u cps => simp at hc
    | cons c cs ih =>
      cases cps with
      | nil => simp at hc
      | cons u cps =>
        simp only [List.map_cons, List.cons.injEq] at hc
        obtain ⟨i1, i2⟩ := ih hc.2
        have e : codeBytes (c :: cs) = beBytes c ++ codeBytes cs := rfl
        rw [e]
        have hk := (char_ok hc.1).1
        obtain ⟨m1, m2⟩ := code_isBytes hk
        refine ⟨.cons (Nat.le_refl _) (by intro h0; rw [h0] at m2; simp at m2) (by rw [from_lookup hk, hc.1]; rfl) (fun i hi => absurd hi (by omega)) i1, ?_⟩
        intro x hx
        rcases List.mem_append.1 hx with hx | hx
        · exact m1 x hx
        · exact i2 x hx
  obtain ⟨h1, h2⟩ := hp
  obtain ⟨D, d1, d2⟩ := tables_pieces (s := s) (Rs := fun _ => fromRules) h.isFrom (by
    intro j hj
    rw [h.one] at hj
    obtain rfl : j = 0 := by omega
    exact ⟨h.table, from_free, from_data⟩) p (by rw [h.one]; exact h1)
  rw [Family.pieces_snd (by simpa using congrArg List.length hc)] at d2
  exact ⟨h2, D, d1, d2⟩

/-- C106.  What C63 and all that rests on it ask of the phase that writes. -/
theorem C106_target {s : Static π} (h : Writes s) : Target.Is s (.table ccciiEnc fun cp => (code cp).isSome) := by
  refine .tables (fun _ => toRules) _ _ h.isTo ?_ ?_
  · intro j hj
    rw [h.one] at hj
    obtain rfl : j = 0 := by omega
    exact ⟨h.table, to_good⟩
  · intro cp hcp
    rw [h.one]
    have := to_lookup hcp.2.1
    simp only [List.range_one, List.findSome?_cons, this, List.findSome?_nil]
    cases e : code cp with
    | none => rfl
    | some b => simp [ccciiEnc, e]

/-- C106.  And of the phase that reads. -/
theorem C106_source {s : Static π} (h : Reads s) (p : Nat → π) : Source.Is s p (.table ccciiEnc fun cp => (code cp).isSome = true) := by
  refine .table fromRules _ _ h.isFrom h.one h.table from_free (fun r hr => (from_data r hr).2) ?_
  intro cp hcp
  obtain ⟨c, e⟩ := Option.isSome_iff_exists.1 hcp
  have hk := (code_ok e).2
  obtain ⟨m1, m2⟩ := code_isBytes hk
  simp only [ccciiEnc, e, Option.getD_some]
  exact ⟨by intro h0; rw [h0] at m2; simp at m2, m1, by rw [from_lookup hk, C106_tables.1 _ _ e]; rfl⟩

/-- C106.  Text of characters CCCII has, converted to CCCII and what comes out, cut anew, converted back, comes back. -/
theorem C106_round_trip {st st' : Nat → Static π} {ip ip' : Nat → Nat → π → π} {ins ins0 : Ins π} {a : Source} {c : Target}
    (hn : ins.phasen = 2) (ha : a.Is (st 1) (initPriv st ip ins 1)) (hb : Writes (st 2))
    (hn' : ins0.phasen = 2) (hb' : Reads (st' 1)) (hc : c.Is (st' 2))
    (cps : List Nat) (hcps : ∀ cp ∈ cps, a.Has cp ∧ c.takes cp = true ∧ (code cp).isSome = true)
    (as : List Arg) (l : Arg) (h1 : ∀ x ∈ as, x.flush = false) (h2 : l.flush = true) (h3 : ∀ x ∈ as ++ [l], x.mode ≠ .null)
    (h4 : ((as ++ [l]).filterMap (fun x => x.input)).flatten = cps.flatMap a.enc) :
    ∃ ds ins', Session st (ins.init st ip) (as ++ [l]) ds ins' ∧ ins'.ierr = ins.ierr ∧ ins'.oerr = ins.oerr ∧
      ∀ (as' : List Arg) (l' : Arg), (∀ x ∈ as', x.flush = false) → l'.flush = true → (∀ x ∈ as' ++ [l'], x.mode ≠ .null) →
        ((as' ++ [l']).filterMap (fun x => x.input)).flatten = (ds.map (fun d => d.bytes)).flatten ++ ins'.pending.flatten →
        ∃ ds' ins'', Session st' (ins0.init st' ip') (as' ++ [l']) ds' ins'' ∧ ins''.ierr = ins0.ierr ∧ ins''.oerr = ins0.oerr ∧
          (ds'.map (fun d => d.bytes)).flatten ++ ins''.pending.flatten = cps.flatMap c.enc := by
  refine C63_round_trip hn ha (C106_target hb) hn' (C106_source hb' _) hc rfl cps ?_ as l h1 h2 h3 h4
  intro cp hcp
  obtain ⟨m1, m2, m3⟩ := hcps cp hcp
  obtain ⟨d, e⟩ := Option.isSome_iff_exists.1 m3
  exact ⟨(code_ok e).1, m1, m3, m3, m2⟩

/-- C106.  `CCCII:CCCII`: what comes out is a text of the same characters, without errors. -/
theorem C106_keeps {st : Nat → Static π} {ip : Nat → Nat → π → π} {ins : Ins π} (hn : ins.phasen = 2)
    (ha : Reads (st 1)) (hb : Writes (st 2)) (cs cps : List Nat) (hcs : cs.map char = cps.map some)
    (as : List Arg) (l : Arg) (h1 : ∀ y ∈ as, y.flush = false) (h2 : l.flush = true) (h3 : ∀ y ∈ as ++ [l], y.mode ≠ .null)
    (h4 : ((as ++ [l]).filterMap (fun y => y.input)).flatten = codeBytes cs) :
    ∃ ds ins' cs', Session st (ins.init st ip) (as ++ [l]) ds ins' ∧
      (ds.map (fun d => d.bytes)).flatten ++ ins'.pending.flatten = codeBytes cs' ∧ cs'.map char = cps.map some ∧
      ins'.ierr = ins.ierr ∧ ins'.oerr = ins.oerr := by
  have hs : ∀ cp ∈ cps, Scalar cp ∧ ∃ c', code cp = some c' ∧ char c' = some cp := by
    intro cp hcp
    have : some cp ∈ cs.map char := by rw [hcs]; exact List.mem_map_of_mem hcp
    obtain ⟨c, _, e⟩ := List.mem_map.1 this
    exact ⟨(char_ok e).2, C106_tables.2 _ _ e⟩
  obtain ⟨ds, ins', k1, k2, k3, k4⟩ := C63_reads (mid := []) hn cps cps (C106_reads ha _ hcs) (C106_target hb) (fun k h => absurd h (by simp)) (by simp)
    (fun cp h => (hs cp h).1) trivial rfl as l h1 h2 h3 h4
  obtain ⟨cs', e1, e2⟩ : ∃ cs' : List Nat, cs'.map char = cps.map some ∧ cps.flatMap ccciiEnc = codeBytes cs' := by
    clear k1 k2 k3 k4 hcs h4
    induction cps with
    | nil => exact ⟨[], rfl, rfl⟩
    | cons cp cps ih =>
      obtain ⟨cs', i1, i2⟩ := ih fun x hx => hs x (by simp [hx])
      obtain ⟨_, c', j1, j2⟩ := hs cp (by simp)
      refine ⟨c' :: cs', by rw [List.map_cons, List.map_cons, j2, i1], ?_⟩
      rw [List.flatMap_cons, i2, ccciiEnc, j1]
      rfl
  have f1 : cps.filter (Target.table ccciiEnc fun cp => (code cp).isSome).takes = cps := List.filter_eq_self.2 fun cp hcp => by
    obtain ⟨_, c', j1, _⟩ := hs cp hcp
    simp [Target.takes, j1]
  have f2 : (cps.filter fun cp => !(Target.table ccciiEnc fun cp => (code cp).isSome).takes cp).length = 0 := by
    rw [List.length_eq_zero_iff, List.filter_eq_nil_iff]
    intro cp hcp
    obtain ⟨_, c', j1, _⟩ := hs cp hcp
    simp [Target.takes, j1]
  refine ⟨ds, ins', cs', k1, ?_, e1, k3, by rw [k4, f2]; rfl⟩
  rw [k2, f1]
  exact e2

/-- C106.  The compiled files make such phases. -/
theorem C106_compiled : Represents (Verif.MkTable.compiled π (Verif.MkTable.lines fromRules)) fromRules ∧
    Represents (Verif.MkTable.compiled π (Verif.MkTable.lines (symbolRules toRules))) (symbolRules toRules) := by
  constructor
  · refine compiled_short _ ?_ (by rw [fromRules, List.length_map]; exact lengths.1)
    intro r hr
    obtain ⟨a, ha, rfl⟩ := List.mem_map.1 hr
    obtain ⟨k1, k2, k3⟩ := reads_ok.2 _ ha
    obtain ⟨m1, m2⟩ := code_isBytes ⟨k1, k2⟩
    refine ⟨⟨?_, ?_, fun c hc => Nat.le_of_lt (m1 c hc)⟩, _, rfl, (uniDatum_ne _).1, scalar_length k3, uniDatum_bytes _⟩
    · intro h0
      simp only at h0
      rw [h0] at m2
      simp at m2
    · simp only [m2]
      decide
  · refine compiled_short _ ?_ (by rw [symbolRules, List.length_map, toRules, List.length_map]; exact lengths.2)
    intro r hr
    obtain ⟨q, hq, rfl⟩ := List.mem_map.1 hr
    obtain ⟨a, ha, rfl⟩ := List.mem_map.1 hq
    obtain ⟨k1, k2, k3⟩ := writes_ok.2 _ ha
    obtain ⟨m1, m2⟩ := code_isBytes ⟨k2, k3⟩
    exact ⟨⟨by simp [symbols, uniDatum], scalar_length k1, fun c hc => by have := uniDatum_bytes a.1 c hc; omega⟩,
      _, rfl, by intro h0; rw [h0] at m2; simp at m2, by rw [m2]; decide, m1⟩

/-- The conversion `CCCII:CCCII` with compiled files. -/
def ccciiConv (k : Nat) : Static Unit :=
  if k = 1 then ⟨.from_, fun _ => Verif.MkTable.compiled _ (Verif.MkTable.lines fromRules), 0⟩
  else ⟨.to_, fun _ => Verif.MkTable.compiled _ (Verif.MkTable.lines (symbolRules toRules)), 0⟩

-- Two characters, the first cut after its first byte.
example : ∃ ds ins' cs', Session ccciiConv (({ ph := fun _ => { priv := fun _ => () }, phasen := 2 } : Ins Unit).init ccciiConv (fun _ _ t => t))
      ([⟨some [0x21], false, .file⟩] ++ [⟨some [0x22, 0x21, 0x21, 0x22, 0x22], true, .file⟩]) ds ins' ∧
    (ds.map (fun d => d.bytes)).flatten ++ ins'.pending.flatten = codeBytes cs' ∧ cs'.map char = [some 0x221E, some 0x2B] ∧ ins'.ierr = 0 ∧ ins'.oerr = 0 := by
  obtain ⟨ds, ins', cs', k1, k2, k3, k4, k5⟩ := C106_keeps (st := ccciiConv) (ip := fun _ _ t => t)
    (ins := { ph := fun _ => { priv := fun _ => () }, phasen := 2 }) rfl ⟨rfl, rfl, C106_compiled.1⟩ ⟨rfl, rfl, C106_compiled.2⟩
    [0x212221, 0x212222] [0x221E, 0x2B] (by decide +kernel) [⟨some [0x21], false, .file⟩] ⟨some [0x22, 0x21, 0x21, 0x22, 0x22], true, .file⟩ (by simp) rfl (by simp)
    (by simp [codeBytes, be3])
  exact ⟨ds, ins', cs', k1, k2, k3, k4, k5⟩

end Verif.Props
