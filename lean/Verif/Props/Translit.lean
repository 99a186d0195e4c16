import Verif.Spec.Translit
import Verif.Model.TransTables
import Verif.Props.Big5Esc

/-! C99: the tables X-TRANS. -/

namespace Verif.Props
open Verif.Spec
open Verif.Engine hiding Datum step

variable {π : Type}

namespace Trans

/-- The orders: `X,X-TRANS` and `X-TRANS,X`. -/
def transOrders (x t : Charset) : List (List (Rules Datum (List Datum))) :=
  [[x.toRules, Ascii.toRules, t.toRules], [t.toRules, x.toRules, Ascii.toRules]]

/-- The phase writes the set with the table of replacements. -/
structure WritesTrans (s : Static π) (x t : Charset) : Prop where
  isTo : s.type = .to_
  tables : ∃ Rs ∈ transOrders x t, s.codecn + 1 = Rs.length ∧ ∀ j (h : j < Rs.length), Represents (s.codecs j) (symbolRules Rs[j])

def transEnc (x t : Charset) (cp : Nat) : List Nat := beBytes ((translit x t cp).getD 0)
def transTakes (x t : Charset) (cp : Nat) : Bool := (translit x t cp).isSome

theorem range_getD {α β : Type} (f : α → Option β) (d : α) : ∀ (l : List α), (List.range l.length).findSome? (fun j => f (l.getD j d)) = l.findSome? f
  | [] => rfl
  | a :: l => by
    rw [List.length_cons, List.range_succ_eq_map, List.findSome?_cons, List.findSome?_map, List.findSome?_cons]
    have := range_getD f d l
    simp only [List.getD_cons_zero, Function.comp_def, List.getD_cons_succ, this]

theorem trans_target {s : Static π} {x t : Charset} (hx : x.fine = true) (ht : t.fine = true) (hs : Suits x t) (h : WritesTrans s x t) :
    (Target.table (transEnc x t) (transTakes x t)).Is s := by
  have hf := Charset.fine_iff hx
  have hg := Charset.fine_iff ht
  obtain ⟨Rs, hRs, hl, hr⟩ := h.tables
  refine .tables (fun j => Rs.getD j []) _ _ h.isTo ?_ ?_
  · intro j hj
    have hj' : j < Rs.length := by omega
    have hm : ∀ R ∈ Rs, R = x.toRules ∨ R = t.toRules ∨ R = Ascii.toRules := by
      intro R hR
      simp only [transOrders, List.mem_cons, List.not_mem_nil, or_false] at hRs
      rcases hRs with e | e <;> rw [e] at hR <;> simp only [List.mem_cons, List.not_mem_nil, or_false] at hR
      · rcases hR with k | k | k
        · exact .inl k
        · exact .inr (.inr k)
        · exact .inr (.inl k)
      · rcases hR with k | k | k
        · exact .inr (.inl k)
        · exact .inl k
        · exact .inr (.inr k)
    have e : Rs.getD j [] = Rs[j] := by simp [List.getD, hj']
    rw [e]
    refine ⟨hr j hj', ?_⟩
    rcases hm _ (List.getElem_mem hj') with k | k | k <;> rw [k]
    · exact toRules_good hf
    · exact toRules_good hg
    · exact toAscii_good
  · intro cp hcp
    rw [hl, range_getD (fun R => lookup R [uniDatum cp]) []]
    have hc := charset_lookup hf hcp
    simp only [List.findSome?_cons, List.findSome?_nil] at hc
    have ht' := toRules_lookup hg hcp
    simp only [transOrders, List.mem_cons, List.not_mem_nil, or_false] at hRs
    have goal : (if transTakes x t cp = true then some [transEnc x t cp] else none) = (translit x t cp).map fun c => [beBytes c] := by
      unfold transTakes transEnc
      cases translit x t cp <;> rfl
    rw [goal]
    unfold translit
    rcases hRs with rfl | rfl <;> simp only [List.findSome?_cons, List.findSome?_nil] <;> rw [ht']
    · cases hk : x.code cp with
      | some c =>
        rw [hk] at hc
        revert hc
        cases lookup x.toRules [uniDatum cp] with
        | some o => intro hc; exact hc
        | none =>
          cases lookup Ascii.toRules [uniDatum cp] with
          | some o => intro hc; exact hc
          | none => intro hc; cases hc
      | none =>
        rw [hk] at hc
        revert hc
        cases lookup x.toRules [uniDatum cp] with
        | some o => intro hc; cases hc
        | none =>
          cases lookup Ascii.toRules [uniDatum cp] with
          | some o => intro hc; cases hc
          | none =>
            intro _
            cases t.writes.find cp <;> rfl
    · cases hw : t.writes.find cp with
      | some c => rw [hs.new _ _ hw]; rfl
      | none =>
        simp only [Option.map_none]
        rw [hc]
        cases x.code cp <;> rfl

theorem translit_flat (x t : Charset) (cps : List Nat) : (cps.filter (transTakes x t)).flatMap (transEnc x t) = codeBytes (cps.filterMap (translit x t)) := by
  induction cps with
  | nil => rfl
  | cons cp cps ih =>
    unfold codeBytes at ih ⊢
    cases h : translit x t cp with
    | none => rw [List.filter_cons_of_neg (by simp [transTakes, h]), List.filterMap_cons_none h, ih]
    | some c =>
      rw [List.filter_cons_of_pos (by simp [transTakes, h]), List.filterMap_cons_some h, List.flatMap_cons, List.flatMap_cons, ih]
      simp [transEnc, h]

/-- What the reader sees, character by character. -/
theorem stands_of {x t : Charset} (hs : Suits x t) {cp : Nat} (hk : ∀ c, x.code cp = some c → x.char c = some cp) :
    (translit x t cp = none ∧ stands x t cp = none) ∨
    ∃ c u, translit x t cp = some c ∧ stands x t cp = some u ∧ x.char c = some u ∧ x.code u = some c ∧ ((x.code cp).isSome → u = cp) := by
  unfold stands translit
  cases h : x.code cp with
  | some c => exact .inr ⟨c, cp, rfl, by simpa using hk c h, hk c h, h, fun _ => rfl⟩
  | none =>
    simp only
    cases hw : t.writes.find cp with
    | none => exact .inl ⟨rfl, rfl⟩
    | some c =>
      obtain ⟨u, h1, h2⟩ := hs.own _ _ hw
      exact .inr ⟨c, u, rfl, by simpa using h1, h1, h2, by simp⟩

theorem stands_map {x t : Charset} (hs : Suits x t) : ∀ {cps : List Nat}, (∀ cp ∈ cps, ∀ c, x.code cp = some c → x.char c = some cp) →
    (cps.filterMap (translit x t)).map x.char = (cps.filterMap (stands x t)).map some ∧
    (cps.filterMap (stands x t)).filterMap (translit x t) = cps.filterMap (translit x t)
  | [], _ => ⟨rfl, rfl⟩
  | cp :: cps, h => by
    obtain ⟨i1, i2⟩ := stands_map hs fun y hy => h y (List.mem_cons_of_mem _ hy)
    rcases stands_of hs (h cp (by simp)) with ⟨h1, h2⟩ | ⟨c, u, h1, h2, h3, h4, _⟩
    · rw [List.filterMap_cons_none h1, List.filterMap_cons_none h2]
      exact ⟨i1, i2⟩
    · have h5 : translit x t u = some c := by unfold translit; rw [h4]
      rw [List.filterMap_cons_some h1, List.filterMap_cons_some h2, List.map_cons, List.map_cons, i1, h3, List.filterMap_cons_some h5, i2]
      exact ⟨rfl, rfl⟩

end Trans
open Trans

/-- C99, writing.  `a:X,X-TRANS` (or `a:X-TRANS,X`), with `a` any encoding of C63: every character that has a code comes out as that code, the others as the replacement; what has
neither is left out and counted. -/
theorem C99_writes {st : Nat → Static π} {ip : Nat → Nat → π → π} {ins : Ins π} {x t : Charset} {a : Source} (hx : x.fine = true) (ht : t.fine = true) (hs : Suits x t)
    (hn : ins.phasen = 2) (ha : a.Is (st 1) (initPriv st ip ins 1)) (hb : WritesTrans (st 2) x t)
    (cps : List Nat) (hcps : ∀ cp ∈ cps, a.Has cp ∧ Scalar cp)
    (as : List Arg) (l : Arg) (h1 : ∀ y ∈ as, y.flush = false) (h2 : l.flush = true) (h3 : ∀ y ∈ as ++ [l], y.mode ≠ .null)
    (h4 : ((as ++ [l]).filterMap (fun y => y.input)).flatten = cps.flatMap a.enc) :
    ∃ ds ins', Session st (ins.init st ip) (as ++ [l]) ds ins' ∧
      (ds.map (fun d => d.bytes)).flatten ++ ins'.pending.flatten = codeBytes (cps.filterMap (translit x t)) ∧
      ins'.ierr = ins.ierr ∧ ins'.oerr = ins.oerr + (cps.filter fun cp => (translit x t cp).isNone).length := by
  obtain ⟨ds, ins', k1, k2, k3, k4⟩ := C63_transcode hn ha (trans_target hx ht hs hb) cps hcps as l h1 h2 h3 h4
  refine ⟨ds, ins', k1, k2.trans (translit_flat x t cps), k3, k4.trans ?_⟩
  congr 3
  funext cp
  simp [Target.takes, transTakes]

/-- C99, reading what was written.  `X:b` on what `a:X,X-TRANS` wrote gives, without errors of its input, the text with every character that the set has (and keeps) unchanged, and the
others replaced by characters of the set. -/
theorem C99_reads_back {st : Nat → Static π} {ip : Nat → Nat → π → π} {ins : Ins π} {x t : Charset} {b : Target} (hx : x.fine = true) (hh : x.high = true) (hs : Suits x t)
    (hn : ins.phasen = 2) (ha : ReadsCharset (st 1) x) (hb : b.Is (st 2))
    (cps : List Nat) (hcps : ∀ cp ∈ cps, ∀ c, x.code cp = some c → x.char c = some cp)
    (as : List Arg) (l : Arg) (h1 : ∀ y ∈ as, y.flush = false) (h2 : l.flush = true) (h3 : ∀ y ∈ as ++ [l], y.mode ≠ .null)
    (h4 : ((as ++ [l]).filterMap (fun y => y.input)).flatten = codeBytes (cps.filterMap (translit x t))) :
    (∀ cp ∈ cps, ((x.code cp).isSome → stands x t cp = some cp) ∧ ((t.writes.find cp).isSome → ∃ u, stands x t cp = some u ∧ u ≠ cp ∧ (x.code u).isSome)) ∧
    ∃ ds ins', Session st (ins.init st ip) (as ++ [l]) ds ins' ∧
      (ds.map (fun d => d.bytes)).flatten ++ ins'.pending.flatten = ((cps.filterMap (stands x t)).filter b.takes).flatMap b.enc ∧
      ins'.ierr = ins.ierr ∧ ins'.oerr = ins.oerr + ((cps.filterMap (stands x t)).filter fun cp => !b.takes cp).length := by
  constructor
  · intro cp hcp
    constructor
    · intro hc
      rcases stands_of hs (hcps cp hcp) with ⟨e, _⟩ | ⟨c, u, e1, e2, e3, e4, e5⟩
      · unfold translit at e
        cases hk : x.code cp with
        | none => rw [hk] at hc; cases hc
        | some c => rw [hk] at e; cases e
      · rw [e2, e5 hc]
    · intro hw
      obtain ⟨c', hw⟩ := Option.isSome_iff_exists.1 hw
      have hno := hs.new _ _ hw
      rcases stands_of hs (hcps cp hcp) with ⟨e, _⟩ | ⟨c, u, e1, e2, e3, e4, e5⟩
      · unfold translit at e
        rw [hno, hw] at e
        cases e
      · refine ⟨u, e2, ?_, by rw [e4]; rfl⟩
        rintro rfl
        rw [hno] at e4
        cases e4
  · exact C76_reads hx hh hn ha hb _ _ (stands_map hs hcps).1 as l h1 h2 h3 h4

/-- C99.  Once is enough: what was written passes `X:X,X-TRANS` unchanged. -/
theorem C99_again {st : Nat → Static π} {ip : Nat → Nat → π → π} {ins : Ins π} {x t : Charset} (hx : x.fine = true) (hh : x.high = true) (ht : t.fine = true) (hs : Suits x t)
    (hn : ins.phasen = 2) (ha : ReadsCharset (st 1) x) (hb : WritesTrans (st 2) x t)
    (cps : List Nat) (hcps : ∀ cp ∈ cps, ∀ c, x.code cp = some c → x.char c = some cp)
    (as : List Arg) (l : Arg) (h1 : ∀ y ∈ as, y.flush = false) (h2 : l.flush = true) (h3 : ∀ y ∈ as ++ [l], y.mode ≠ .null)
    (h4 : ((as ++ [l]).filterMap (fun y => y.input)).flatten = codeBytes (cps.filterMap (translit x t))) :
    ∃ ds ins', Session st (ins.init st ip) (as ++ [l]) ds ins' ∧
      (ds.map (fun d => d.bytes)).flatten ++ ins'.pending.flatten = codeBytes (cps.filterMap (translit x t)) ∧
      ins'.ierr = ins.ierr ∧ ins'.oerr = ins.oerr := by
  obtain ⟨e, ds, ins', k1, k2, k3, k4⟩ := C99_reads_back hx hh hs hn ha (trans_target hx ht hs hb) cps hcps as l h1 h2 h3 h4
  have hm := stands_map hs hcps
  refine ⟨ds, ins', k1, ?_, k3, ?_⟩
  · rw [k2]
    show ((cps.filterMap (stands x t)).filter (transTakes x t)).flatMap (transEnc x t) = _
    rw [translit_flat, hm.2]
  · rw [k4]
    have : ((cps.filterMap (stands x t)).filter fun cp => !(Target.table (transEnc x t) (transTakes x t)).takes cp) = [] := by
      rw [List.filter_eq_nil_iff]
      intro u hu
      obtain ⟨cp, hcp, e⟩ := List.mem_filterMap.1 hu
      rcases stands_of hs (hcps cp hcp) with ⟨_, f⟩ | ⟨c, u', e1, e2, e3, e4, e5⟩
      · rw [f] at e; cases e
      · rw [e2, Option.some.injEq] at e
        subst e
        have h5 : translit x t u' = some c := by unfold translit; rw [e4]
        simp [Target.takes, transTakes, h5]
    rw [this]
    rfl

/-! ### The shipped tables -/

namespace Trans

/-- The check: the characters are not in the set, the codes are codes of the set. -/
noncomputable def fits (x t : Charset) : Bool :=
  (fun tr tw => t.writes.all fun r => Nat.ble 0x80 r.1 && (Nat.blt 0x2DC r.1 || Nat.ble (r.1 + r.2.length) 0x2DC) && noneRun tw ((Chart.run r.1 r.2).map Prod.fst) && keepRun tr tw r.2 &&
    r.2.all fun c => Nat.ble 0x80 c) (CTree.build 12 x.reads) (CTree.build 12 x.writes)

theorem fits_suits {x t : Charset} (hx : x.fine = true) (h : fits x t = true) : Suits x t := by
  have hf := Charset.fine_iff hx
  have key : ∀ cp c, t.writes.find cp = some c → 0x80 ≤ cp ∧ cp ≠ 0x2DC ∧ (CTree.build 12 x.writes).get cp = 0 ∧ 0x80 ≤ c ∧
      (CTree.build 12 x.reads).get c ≠ 0 ∧ (CTree.build 12 x.writes).get ((CTree.build 12 x.reads).get c) = c := by
    intro cp c hw
    obtain ⟨r, hr, hm⟩ := List.mem_flatMap.1 (Chart.find_mem hw)
    have h1 := List.all_eq_true.1 h r hr
    simp only [Bool.and_eq_true, Bool.or_eq_true, Nat.ble_eq, Nat.blt_eq] at h1
    obtain ⟨⟨⟨⟨a1, a2⟩, a3⟩, a4⟩, a5⟩ := h1
    have hl := Chart.run_lt hm
    simp only at hl
    have a6 := keepRun_all a4 _ hm
    have a7 := List.all_eq_true.1 a5 c (List.mem_of_getElem? (Chart.mem_run.1 hm).2)
    rw [Nat.ble_eq] at a7
    exact ⟨by omega, by omega, noneRun_mem a3 cp (List.mem_map.2 ⟨_, hm, rfl⟩), a7, a6.1, a6.2⟩
  constructor
  · intro cp c hw
    obtain ⟨k1, k2, k3, _⟩ := key cp c hw
    have hno : x.writes.find cp = none := by
      cases hv : x.writes.find cp with
      | none => rfl
      | some v =>
        have hm := Chart.find_mem hv
        have hx1 := hx
        unfold Charset.fine at hx1
        simp only [Bool.and_eq_true] at hx1
        have hpos := (hf.chars _ hm).2.1
        simp only at hpos
        rcases build_find (d := 12) (rising_runs hx1.1.1.1.1.2).1 hm with k | k
        · omega
        · have h1 := congrArg List.length k.1
          rw [List.length_drop, List.length_nil] at h1
          have : x.writes = [] := List.eq_nil_of_length_eq_zero (by omega)
          rw [this] at hm
          simp [Chart.pairs] at hm
    unfold Charset.code
    rw [hno]
    simp only
    rw [if_neg (by omega), if_neg k2]
  · intro cp c hw
    obtain ⟨_, _, _, k4, k5, k6⟩ := key cp c hw
    refine ⟨(CTree.build 12 x.reads).get c, ?_, ?_⟩
    · unfold Charset.char
      rw [if_neg (by omega)]
      exact Chart.mem_find hf.reads (build_mem k5 rfl)
    · unfold Charset.code
      rw [Chart.mem_find hf.writes (build_mem (by omega) k6)]

theorem fits_all {x t : Charset} (hx : x.fine = true) (h : (t.fine && Charset.small t && fits x t) = true) : t.fine = true ∧ Charset.small t = true ∧ Suits x t := by
  simp only [Bool.and_eq_true] at h
  exact ⟨h.1.1, h.1.2, fits_suits hx h.2⟩

theorem gbk_trans : Charsets.gbkTrans.fine = true ∧ Charset.small Charsets.gbkTrans = true ∧ Suits Charsets.gbk Charsets.gbkTrans :=
  fits_all C76_gbk.fine (by decide +kernel)
theorem cp936_trans : Charsets.cp936Trans.fine = true ∧ Charset.small Charsets.cp936Trans = true ∧ Suits Charsets.cp936 Charsets.cp936Trans :=
  fits_all C76_cp936_partial.fine (by decide +kernel)
theorem cp950_trans : Charsets.cp950Trans.fine = true ∧ Charset.small Charsets.cp950Trans = true ∧ Suits Charsets.big5 Charsets.cp950Trans :=
  fits_all big5_fine.1 (by decide +kernel)
theorem gb2312_trans : Charsets.gb2312Trans.fine = true ∧ Charset.small Charsets.gb2312Trans = true ∧ Suits Charsets.gb2312 Charsets.gb2312Trans :=
  fits_all gb2312_fine.1 (by decide +kernel)

end Trans

/-- C99, the shipped tables: GBK-TRANS, CP936-TRANS, CP950-TRANS (with BIG5) and GB2312-TRANS have lines only for characters the set has no code for, and replace them by characters of
the set. -/
theorem C99_tables : Suits Charsets.gbk Charsets.gbkTrans ∧ Suits Charsets.cp936 Charsets.cp936Trans ∧ Suits Charsets.big5 Charsets.cp950Trans ∧
    Suits Charsets.gb2312 Charsets.gb2312Trans :=
  ⟨gbk_trans.2.2, cp936_trans.2.2, cp950_trans.2.2, gb2312_trans.2.2⟩

/-! ### A conversion -/

/-- `GBK:BIG5,CP950-TRANS` -/
def transConv (k : Nat) : Static Unit :=
  if k = 1 then charsetConv Charsets.gbk Charsets.big5 1
  else ⟨.to_, fun j => if j = 0 then Verif.MkTable.compiled _ (Verif.MkTable.lines (symbolRules Charsets.big5.toRules)) else if j = 1 then trieCodec (symbolRules Ascii.toRules)
    else Verif.MkTable.compiled _ (Verif.MkTable.lines (symbolRules Charsets.cp950Trans.toRules)), 2⟩

theorem transConv_writes : WritesTrans (transConv 2) Charsets.big5 Charsets.cp950Trans := by
  refine ⟨rfl, [Charsets.big5.toRules, Ascii.toRules, Charsets.cp950Trans.toRules], by simp [transOrders], rfl, ?_⟩
  intro j hj
  obtain rfl | rfl | rfl : j = 0 ∨ j = 1 ∨ j = 2 := by simp at hj; omega
  · exact (C76_compiled big5_fine.1 big5_fine.2.2).2
  · exact trieToAscii
  · exact (C76_compiled cp950_trans.1 cp950_trans.2.1).2

-- Simplified characters in GBK, `A` between them, and the code cut: the replacements are the traditional ones.
example : ∃ ds ins', Session transConv
      (({ ph := fun _ => { priv := fun _ => () }, phasen := 2 } : Ins Unit).init transConv (fun _ _ t => t))
      ([⟨some [0xB2], false, .file⟩] ++ [⟨some [0xE2, 0x41, 0xCA, 0xD4], true, .file⟩]) ds ins' ∧
    (ds.map (fun d => d.bytes)).flatten ++ ins'.pending.flatten = [0xB4, 0xFA, 0x41, 0xB8, 0xD5] ∧ ins'.ierr = 0 ∧ ins'.oerr = 0 := by
  have e1 : beBytes 0xB2E2 = [0xB2, 0xE2] := be2 (by decide) (by decide)
  have e2 : beBytes 0xCAD4 = [0xCA, 0xD4] := be2 (by decide) (by decide)
  have e3 : beBytes 0xB4FA = [0xB4, 0xFA] := be2 (by decide) (by decide)
  have e4 : beBytes 0xB8D5 = [0xB8, 0xD5] := be2 (by decide) (by decide)
  have e5 : beBytes 0x41 = [0x41] := be1 (by decide)
  have t1 : translit Charsets.big5 Charsets.cp950Trans 0x6D4B = some 0xB4FA := by decide +kernel
  have t2 : translit Charsets.big5 Charsets.cp950Trans 0x41 = some 0x41 := by decide +kernel
  have t3 : translit Charsets.big5 Charsets.cp950Trans 0x8BD5 = some 0xB8D5 := by decide +kernel
  obtain ⟨ds, ins', k1, k2, k3, k4⟩ := C76_reads (st := transConv) (ip := fun _ _ t => t) (ins := { ph := fun _ => { priv := fun _ => () }, phasen := 2 })
    C76_gbk.fine C76_gbk.high rfl (charsetConv_reads (y := Charsets.big5) C76_gbk.fine C76_gbk.small) (trans_target big5_fine.1 cp950_trans.1 cp950_trans.2.2 transConv_writes)
    [0xB2E2, 0x41, 0xCAD4] [0x6D4B, 0x41, 0x8BD5] (by decide +kernel)
    [⟨some [0xB2], false, .file⟩] ⟨some [0xE2, 0x41, 0xCA, 0xD4], true, .file⟩ (by simp) rfl (by simp) (by simp [codeBytes, e1, e2, e5])
  refine ⟨ds, ins', k1, k2.trans ?_, k3, k4.trans ?_⟩
  · show (List.filter (transTakes _ _) _).flatMap (transEnc _ _) = _
    rw [translit_flat, List.filterMap_cons_some t1, List.filterMap_cons_some t2, List.filterMap_cons_some t3]
    simp [codeBytes, e3, e4, e5]
  · have f : ∀ {cp c}, translit Charsets.big5 Charsets.cp950Trans cp = some c → transTakes Charsets.big5 Charsets.cp950Trans cp = true := by
      intro cp c h; unfold transTakes; rw [h]; rfl
    simp only [Target.takes]
    rw [List.filter_cons_of_neg (by rw [f t1]; decide), List.filter_cons_of_neg (by rw [f t2]; decide), List.filter_cons_of_neg (by rw [f t3]; decide)]
    rfl

end Verif.Props
