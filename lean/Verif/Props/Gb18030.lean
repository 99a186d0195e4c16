import Verif.Model.Gb18030
import Verif.Spec.Gb18030
import Verif.Props.Range
import Verif.Props.Utf16
import Verif.Props.Engine
/-
C26: computed four-byte codes of GB18030.
-/
namespace Verif.Props
open Verif.Spec Verif.Range Verif.Gb18030
open Verif.Engine hiding Datum step

/-- Search, then test of the row the search ended on: exact on ordered tables. -/
theorem convert_spec {t : List Row} (h : Ordered t) (hne : t ≠ []) (u : Nat) :
    ∃ o, convert t u = some o ∧ ∀ n, o = some n ↔ ∃ r ∈ t, In u r ∧ n = r.val.toNat + (u - r.beg) := by
  have hl : 0 < t.length := List.length_pos_iff.2 hne
  have e0 : t[0]? = some t[0] := List.getElem?_eq_getElem hl
  have e1 : t[t.length - 1]? = some t[t.length - 1] := List.getElem?_eq_getElem (by omega)
  unfold convert search
  rw [e0, e1]
  simp only
  split
  · rename_i heq
    exfalso
    split at heq
    · cases heq
    · obtain ⟨f, hf, _⟩ := loop_spec t h u 0 (t.length - 1) 0 (by omega) (by omega) (by omega) (by omega)
      rw [hf] at heq; cases heq
  · rename_i heq
    split at heq
    · rename_i hout
      refine ⟨none, rfl, fun n => ⟨by simp, ?_⟩⟩
      rintro ⟨r, hr, hin, _⟩
      exfalso
      obtain ⟨k, hk, rfl⟩ := List.getElem_of_mem hr
      unfold In at hin
      rcases hout with hout | hout
      · rcases Nat.eq_zero_or_pos k with rfl | hk0
        · omega
        · have := List.pairwise_iff_getElem.1 h.2 0 k hl hk hk0
          have := h.1 t[0] (List.getElem_mem hl); omega
      · by_cases hkl : k = t.length - 1
        · subst hkl; omega
        · have := List.pairwise_iff_getElem.1 h.2 k (t.length - 1) hk (by omega) (by omega)
          have := h.1 t[t.length - 1] (List.getElem_mem (by omega)); omega
    · obtain ⟨f, hf, _⟩ := loop_spec t h u 0 (t.length - 1) 0 (by omega) (by omega) (by omega) (by omega)
      rw [hf] at heq; cases heq
  · rename_i f heq
    split at heq
    · cases heq
    · obtain ⟨f', hf, hh⟩ := loop_spec t h u 0 (t.length - 1) 0 (by omega) (by omega) (by omega) (by omega)
      rw [hf] at heq
      simp only [Option.map_some, Option.some.injEq] at heq
      subst heq
      have hm : f'.mid < t.length := by
        rcases hh with ⟨_, hm, _⟩ | ⟨_, _, hm⟩
        · exact hm
        · omega
      rw [List.getElem?_eq_getElem hm]
      refine ⟨_, rfl, fun n => ?_⟩
      rcases hh with ⟨_, _, hin⟩ | ⟨_, hno, _⟩
      · have hin2 := hin
        unfold In at hin2
        rw [if_pos hin2]
        constructor
        · rintro ⟨⟩; exact ⟨_, List.getElem_mem hm, hin, rfl⟩
        · rintro ⟨r, hr, hin', rfl⟩; rw [in_unique h hr (List.getElem_mem hm) hin' hin]
      · have hno2 := hno _ (List.getElem_mem hm)
        unfold In at hno2
        rw [if_neg hno2]
        constructor
        · intro hc; cases hc
        · rintro ⟨r, hr, hin, _⟩; exact absurd hin (hno r hr)

theorem from_ordered : Ordered fromTable ∧ fromTable ≠ [] := ⟨ordered_sound _ (by decide +kernel), by decide⟩
theorem to_ordered : Ordered toTable ∧ toTable ≠ [] := ⟨ordered_sound _ (by decide +kernel), by decide⟩

/-- Index of the first code of a block. -/
def gbStart (r : Nat × Nat × (Nat × Nat × Nat × Nat)) : Nat := gbIndex r.2.2.1 r.2.2.2.1 r.2.2.2.2.1 r.2.2.2.2.2

theorem gb_blocks_ok : ∀ r ∈ gbBlocks, r.1 ≤ r.2.1 := by decide

/-- The decoder's table against the blocks of the specification. -/
theorem from_blocks (u n : Nat) : (∃ r ∈ fromTable, In u r ∧ n = r.val.toNat + (u - r.beg)) ↔
    ∃ r ∈ gbBlocks, (r.1 ≤ n ∧ n ≤ r.2.1) ∧ u = 1687218 + gbStart r + (n - r.1) := by
  have h : fromTable = gbBlocks.map fun r =>
      ⟨1687218 + gbStart r, 1687218 + gbStart r + (r.2.1 - r.1), (r.1 : Int)⟩ := by decide +kernel
  rw [h]
  constructor
  · rintro ⟨_, hr, hin, hn⟩
    obtain ⟨r, hr', rfl⟩ := List.mem_map.1 hr
    have := gb_blocks_ok r hr'
    unfold In at hin
    simp only [Int.toNat_natCast] at hin hn
    exact ⟨r, hr', by omega, by omega⟩
  · rintro ⟨r, hr, hin, hn⟩
    refine ⟨_, List.mem_map_of_mem hr, ?_, ?_⟩
    · unfold In; simp only; omega
    · simp only [Int.toNat_natCast]; omega

/-- The encoder's table against the blocks of the specification. -/
theorem to_blocks (n u : Nat) : (∃ r ∈ toTable, In n r ∧ u = r.val.toNat + (n - r.beg)) ↔
    ∃ r ∈ gbBlocks, (r.1 ≤ n ∧ n ≤ r.2.1) ∧ u = 1687218 + gbStart r + (n - r.1) := by
  have h : toTable = gbBlocks.map fun r => ⟨r.1, r.2.1, ((1687218 + gbStart r : Nat) : Int)⟩ := by decide +kernel
  rw [h]
  constructor
  · rintro ⟨_, hr, hin, hn⟩
    obtain ⟨r, hr', rfl⟩ := List.mem_map.1 hr
    unfold In at hin
    simp only [Int.toNat_natCast] at hin hn
    exact ⟨r, hr', hin, by omega⟩
  · rintro ⟨r, hr, hin, hn⟩
    exact ⟨_, List.mem_map_of_mem hr, hin, by simp only [Int.toNat_natCast]; omega⟩

/-- The number a datum of big-endian bytes stands for. -/
theorem fold_beBytes (n : Nat) : (beBytes n).foldl (fun u b => u * 256 + b) 0 = n := by
  induction n using Nat.strongRecOn with
  | ind n ih =>
    rw [beBytes]
    split
    · simp
    · rw [List.foldl_append, ih (n / 256) (by omega)]; simp only [List.foldl_cons, List.foldl_nil]; omega

/-- Bytes of the code with a given index. -/
theorem index_bytes {g : Nat} : gbIndex (0x81 + g / 10 / 126 / 10) (0x30 + g / 10 / 126 % 10) (0x81 + g / 10 % 126)
    (0x30 + g % 10) = g := by
  unfold gbIndex; omega

theorem index_inj {a b c d a' b' c' d' : Nat} (h : GbLegal a b c d) (h' : GbLegal a' b' c' d')
    (he : gbIndex a b c d = gbIndex a' b' c' d') : a = a' ∧ b = b' ∧ c = c' ∧ d = d' := by
  unfold GbLegal at h h'
  unfold gbIndex at he
  omega

/-- Every index up to the last block is below 126·10·126·10. -/
theorem gb_index_lt {n : Nat} {r} (hr : r ∈ gbBlocks) (h : r.1 ≤ n ∧ n ≤ r.2.1) : gbStart r + (n - r.1) < 1587600 := by
  have : ∀ r ∈ gbBlocks, gbStart r + (r.2.1 - r.1) < 1587600 := by decide +kernel
  have := this r hr
  omega

theorem encode_eq {cp : Nat} {o : Option Nat} (ho : convert toTable cp = some o) : encode (uniDatum cp) = some (o.map fun gb =>
    [[0x81 + (gb - 1687218) / 10 / 126 / 10, 0x30 + (gb - 1687218) / 10 / 126 % 10,
          0x81 + (gb - 1687218) / 10 % 126, 0x30 + (gb - 1687218) % 10]]) := by
  unfold encode uniDatum
  simp only [List.drop_succ_cons, List.drop_zero]
  rw [fold_beBytes, ho]
  cases o <;> rfl

/-- C26, encoder: on the datum of `cp` the encoder outputs exactly the bytes of its four-byte code. -/
theorem C26_encode (cp a b c d : Nat) : encode (uniDatum cp) = some (some [[a, b, c, d]]) ↔ GbCode cp a b c d := by
  obtain ⟨o, ho, hspec⟩ := convert_spec to_ordered.1 to_ordered.2 cp
  rw [encode_eq ho]
  constructor
  · intro h
    cases o with
    | none => cases h
    | some gb =>
      obtain ⟨r, hr, hin, hgb⟩ := (to_blocks cp gb).1 ((hspec gb).1 rfl)
      have hlt := gb_index_lt hr hin
      simp only [Option.map_some, Option.some.injEq, List.cons.injEq, and_true] at h
      obtain ⟨rfl, rfl, rfl, rfl⟩ := h
      refine ⟨?_, r, hr, hin, ?_⟩
      · unfold GbLegal; omega
      · rw [index_bytes]; unfold gbStart at hgb; omega
  · rintro ⟨hl, r, hr, hin, hix⟩
    have := (hspec (1687218 + gbStart r + (cp - r.1))).2 ((to_blocks _ _).2 ⟨r, hr, hin, rfl⟩)
    subst this
    have hlt := gb_index_lt hr hin
    have hg : 1687218 + gbStart r + (cp - r.1) - 1687218 = gbStart r + (cp - r.1) := by omega
    simp only [hg, Option.map_some]
    obtain ⟨h1, h2, h3, h4⟩ := index_inj (a' := a) (b' := b) (c' := c) (d' := d)
      (a := 0x81 + (gbStart r + (cp - r.1)) / 10 / 126 / 10) (b := 0x30 + (gbStart r + (cp - r.1)) / 10 / 126 % 10)
      (c := 0x81 + (gbStart r + (cp - r.1)) / 10 % 126) (d := 0x30 + (gbStart r + (cp - r.1)) % 10)
      (by unfold GbLegal; omega) hl (by rw [index_bytes, hix]; rfl)
    rw [h1, h2, h3, h4]

/-- C26, encoder: refusal exactly outside the blocks, and never a read outside the table. -/
theorem C26_refuses (cp : Nat) : encode (uniDatum cp) = some none ↔ ¬ GbComputed cp := by
  obtain ⟨o, ho, hspec⟩ := convert_spec to_ordered.1 to_ordered.2 cp
  rw [encode_eq ho]
  constructor
  · intro h
    cases o with
    | some gb => cases h
    | none =>
      rintro ⟨r, hr, hin⟩
      have := (hspec (1687218 + gbStart r + (cp - r.1))).2 ((to_blocks _ _).2 ⟨r, hr, hin, rfl⟩)
      cases this
  · intro h
    cases o with
    | none => rfl
    | some gb =>
      obtain ⟨r, hr, hin, _⟩ := (to_blocks cp gb).1 ((hspec gb).1 rfl)
      exact absurd ⟨r, hr, hin⟩ h

/-- Every computed code point has a code. -/
theorem C26_total (cp : Nat) (h : GbComputed cp) : ∃ a b c d, encode (uniDatum cp) = some (some [[a, b, c, d]]) := by
  obtain ⟨r, hr, hin⟩ := h
  have hlt := gb_index_lt hr hin
  exact ⟨_, _, _, _, (C26_encode cp _ _ _ _).2 ⟨by unfold GbLegal; omega, r, hr, hin,
    index_bytes (g := gbStart r + (cp - r.1))⟩⟩

/-! ## Decoder -/

/-- What the loop answers on the fourth byte. -/
def gbAnswer (u : Nat) (k : Nat) : Fed Priv :=
  match convert fromTable u with
  | some (some n) => .ret k ⟨0, u⟩ [datumOf n] .nextphase
  | _ => .ret k ⟨0, u⟩ [] .deadend

theorem gstep (c : List Nat) (t : Priv) (d : Nat) : (machine c).step t d = Gb18030.step c t d := rfl

theorem catchUp_done {c : List Nat} {s u : Nat} (h : ¬ (s < c.length ∧ s < 3)) : catchUp c ⟨s, u⟩ = ⟨s, u⟩ := by
  rw [catchUp, if_neg h]

theorem catchUp_step {c : List Nat} {s u : Nat} (h : s < c.length ∧ s < 3) :
    catchUp c ⟨s, u⟩ = catchUp c (accept ⟨s, u⟩ (c.getD s 0)) := by
  rw [catchUp, if_pos h]

theorem last_step (c : List Nat) (t : Priv) (d : Nat) (r : List Nat) {u : Nat} (h : catchUp c t = ⟨3, u⟩) :
    (machine c).feed t (d :: r) = gbAnswer (u + d) 1 := by
  unfold Machine.feed gbAnswer
  rw [gstep]
  unfold Gb18030.step
  rw [h]
  simp only [accept, decide_true, if_true]
  cases hc : convert fromTable (u + d) with
  | none => rfl
  | some o => cases o <;> rfl

theorem more_step (c : List Nat) (t : Priv) (d : Nat) (r : List Nat) {s u : Nat} (h : catchUp c t = ⟨s, u⟩) (hs : s < 3) :
    (machine c).feed t (d :: r) = Utf8.Fed.after ((machine c).feed (accept ⟨s, u⟩ d) r) := by
  apply Utf8.feed_more
  rw [gstep]
  unfold Gb18030.step
  rw [h]
  have : decide (s = 3) = false := by simp; omega
  simp only [this]
  rfl

theorem after_answer (u k : Nat) : Utf8.Fed.after (gbAnswer u k) = gbAnswer u (k + 1) := by
  unfold gbAnswer
  cases convert fromTable u with
  | none => rfl
  | some o => cases o <;> rfl

/-- The loop on the remaining bytes of a four-byte code, whatever part `c` of it the table has matched. -/
theorem feed_four (t : Priv) (ht : t.status = 0) (c ds r : List Nat) (hc : c.length ≤ 3) {a b x d : Nat}
    (h : c ++ ds = [a, b, x, d]) :
    (machine c).feed t (ds ++ r) = gbAnswer (((a * 10 + b) * 126 + x) * 10 + d) (4 - c.length) := by
  obtain ⟨s, u⟩ := t
  simp only at ht
  subst ht
  match c, hc with
  | [], _ =>
    simp only [List.nil_append] at h
    subst h
    simp only [List.cons_append, List.nil_append]
    rw [more_step [] ⟨0, u⟩ a _ (catchUp_done (by simp)) (by omega)]
    simp only [accept]
    rw [more_step [] ⟨1, a * 10⟩ b _ (catchUp_done (by simp)) (by omega)]
    simp only [accept]
    rw [more_step [] ⟨2, (a * 10 + b) * 126⟩ x _ (catchUp_done (by simp)) (by omega)]
    simp only [accept]
    rw [last_step [] ⟨3, ((a * 10 + b) * 126 + x) * 10⟩ d _ (catchUp_done (by simp))]
    rw [after_answer, after_answer, after_answer]
    rfl
  | [a'], _ =>
    simp only [List.cons_append, List.nil_append, List.cons.injEq] at h
    obtain ⟨rfl, rfl⟩ := h
    simp only [List.cons_append, List.nil_append]
    rw [more_step [a'] ⟨0, u⟩ b _ (s := 1) (u := a' * 10)
      (by rw [catchUp_step (by simp)]; exact catchUp_done (by simp)) (by omega)]
    simp only [accept]
    rw [more_step [a'] ⟨2, (a' * 10 + b) * 126⟩ x _ (catchUp_done (by simp)) (by omega)]
    simp only [accept]
    rw [last_step [a'] ⟨3, ((a' * 10 + b) * 126 + x) * 10⟩ d _ (catchUp_done (by simp))]
    rw [after_answer, after_answer]
    rfl
  | [a', b'], _ =>
    simp only [List.cons_append, List.nil_append, List.cons.injEq] at h
    obtain ⟨rfl, rfl, rfl⟩ := h
    simp only [List.cons_append, List.nil_append]
    rw [more_step [a', b'] ⟨0, u⟩ x _ (s := 2) (u := (a' * 10 + b') * 126)
      (by rw [catchUp_step (by simp)]; exact (catchUp_step (by simp)).trans (catchUp_done (by simp))) (by omega)]
    simp only [accept]
    rw [last_step [a', b'] ⟨3, ((a' * 10 + b') * 126 + x) * 10⟩ d _ (catchUp_done (by simp))]
    rw [after_answer]
    rfl
  | [a', b', x'], _ =>
    simp only [List.cons_append, List.nil_append, List.cons.injEq] at h
    obtain ⟨rfl, rfl, rfl, rfl⟩ := h
    simp only [List.cons_append, List.nil_append]
    rw [last_step [a', b', x'] ⟨0, u⟩ d _ (u := ((a' * 10 + b') * 126 + x') * 10)
      (by
        rw [catchUp_step (by simp)]
        refine (catchUp_step (by simp)).trans ?_
        exact (catchUp_step (by simp)).trans (catchUp_done (by simp)))]
    rfl

theorem datumOf_eq {n : Nat} (h0 : n ≠ 0) (h : n < 2 ^ 32) : datumOf n = uniDatum n := by
  unfold datumOf
  rw [← datum4 h0 h]
  unfold utf32be
  rw [Nat.mod_eq_of_lt (by omega)]

theorem gb_cp_range {n : Nat} {r} (hr : r ∈ gbBlocks) (h : r.1 ≤ n ∧ n ≤ r.2.1) : n ≠ 0 ∧ n < 2 ^ 32 := by
  have : ∀ r ∈ gbBlocks, 0 < r.1 ∧ r.2.1 < 2 ^ 32 := by decide
  have := this r hr
  omega

/-- C26, decoder: whatever prefix of the code the table has matched, on legal bytes the decoder outputs the datum of
the code point with that code. -/
theorem C26_decode (t : Priv) (ht : t.status = 0) (c ds r : List Nat) (hc : c.length ≤ 3) {a b x d : Nat}
    (h : c ++ ds = [a, b, x, d]) (cp : Nat) (hcode : GbCode cp a b x d) :
    ∃ t', (machine c).feed t (ds ++ r) = .ret (4 - c.length) t' [uniDatum cp] .nextphase ∧ t'.status = 0 := by
  obtain ⟨hl, blk, hb, hin, hix⟩ := hcode
  rw [feed_four t ht c ds r hc h]
  have hu : ((a * 10 + b) * 126 + x) * 10 + d = 1687218 + gbStart blk + (cp - blk.1) := by
    have e : gbIndex a b x d = gbStart blk + (cp - blk.1) := hix
    unfold gbIndex at e
    unfold GbLegal at hl
    omega
  obtain ⟨o, ho, hspec⟩ := convert_spec from_ordered.1 from_ordered.2 (((a * 10 + b) * 126 + x) * 10 + d)
  have := (hspec cp).2 ((from_blocks _ _).2 ⟨blk, hb, hin, hu⟩)
  subst this
  refine ⟨⟨0, ((a * 10 + b) * 126 + x) * 10 + d⟩, ?_, rfl⟩
  unfold gbAnswer
  rw [ho]
  obtain ⟨h1, h2⟩ := gb_cp_range hb hin
  rw [← datumOf_eq h1 h2]

/-- C26, decoder: nothing else is decoded on legal bytes. -/
theorem C26_rejects (t : Priv) (ht : t.status = 0) (c ds r : List Nat) (hc : c.length ≤ 3) {a b x d : Nat}
    (h : c ++ ds = [a, b, x, d]) (hl : GbLegal a b x d) (hno : ∀ cp, ¬ GbCode cp a b x d) :
    ∃ t', (machine c).feed t (ds ++ r) = .ret (4 - c.length) t' [] .deadend ∧ t'.status = 0 := by
  rw [feed_four t ht c ds r hc h]
  obtain ⟨o, ho, hspec⟩ := convert_spec from_ordered.1 from_ordered.2 (((a * 10 + b) * 126 + x) * 10 + d)
  have : o = none := by
    cases o with
    | none => rfl
    | some n =>
      exfalso
      obtain ⟨blk, hb, hin, hu⟩ := (from_blocks _ _).1 ((hspec n).1 rfl)
      apply hno n
      refine ⟨hl, blk, hb, hin, ?_⟩
      show _ = gbStart blk + (n - blk.1)
      unfold gbIndex
      unfold GbLegal at hl
      omega
  subst this
  refine ⟨⟨0, ((a * 10 + b) * 126 + x) * 10 + d⟩, ?_, rfl⟩
  unfold gbAnswer
  rw [ho]

/-- C26, round trip from code points: what the encoder outputs for a code point decodes to it. -/
theorem C26_round_trip (cp : Nat) (out : List (List Nat)) (h : encode (uniDatum cp) = some (some out)) (t : Priv)
    (ht : t.status = 0) (c ds r : List Nat) (hc : c.length ≤ 3) (hcd : [c ++ ds] = out) :
    ∃ t', (machine c).feed t (ds ++ r) = .ret (4 - c.length) t' [uniDatum cp] .nextphase ∧ t'.status = 0 := by
  obtain ⟨o, ho, _⟩ := convert_spec to_ordered.1 to_ordered.2 cp
  have h' := h
  rw [encode_eq ho] at h'
  cases o with
  | none => cases h'
  | some gb =>
    simp only [Option.map_some, Option.some.injEq] at h'
    rw [← h'] at h hcd
    exact C26_decode t ht c ds r hc (List.cons.inj hcd).1 cp ((C26_encode _ _ _ _ _).1 h)

/-- C26, round trip from codes, legal bytes: an accepted code re-encodes to itself.  Missing: bytes outside the legal
ranges, see `C26_violated`. -/
theorem C26_reencode_partial (t t' : Priv) (ht : t.status = 0) (c ds r : List Nat) (hc : c.length ≤ 3) {a b x d k : Nat}
    (h : c ++ ds = [a, b, x, d]) (hl : GbLegal a b x d) {out : List (List Nat)}
    (hacc : (machine c).feed t (ds ++ r) = .ret k t' out .nextphase) :
    ∃ cp, out = [uniDatum cp] ∧ encode (uniDatum cp) = some (some [[a, b, x, d]]) := by
  by_cases hno : ∃ cp, GbCode cp a b x d
  · obtain ⟨cp, hcode⟩ := hno
    obtain ⟨t2, h2, _⟩ := C26_decode t ht c ds r hc h cp hcode
    rw [h2] at hacc
    cases hacc
    exact ⟨cp, rfl, (C26_encode _ _ _ _ _).2 hcode⟩
  · obtain ⟨t2, h2, _⟩ := C26_rejects t ht c ds r hc h hl (by simpa using hno)
    rw [h2] at hacc
    cases hacc

/-- The converse fails: the decoder accepts 90 30 80 3A, whose third and fourth bytes no GB18030 code has, as U+10000
(the code of which is 90 30 81 30). -/
theorem C26_violated (t : Priv) (ht : t.status = 0) :
    (∃ t', (machine [0x90, 0x30]).feed t [0x80, 0x3A] = .ret 2 t' [uniDatum 0x10000] .nextphase) ∧
    encode (uniDatum 0x10000) = some (some [[0x90, 0x30, 0x81, 0x30]]) := by
  constructor
  · have := feed_four t ht [0x90, 0x30] [0x80, 0x3A] [] (by simp) rfl
    simp only [List.append_nil] at this
    rw [this]
    exact ⟨⟨0, ((0x90 * 10 + 0x30) * 126 + 0x80) * 10 + 0x3A⟩, by decide +kernel⟩
  · decide +kernel

example : encode (uniDatum 0x1F600) = some (some [[0x94, 0x39, 0xFC, 0x36]]) := by decide +kernel
example : (machine [0x94]).feed ⟨0, 7⟩ [0x39, 0xFC, 0x36] = .ret 3 ⟨0, 1939194⟩ [[1, 1, 0xF6, 0]] .nextphase := by
  decide +kernel
example : GbComputed 0x1F600 ∧ ¬ GbComputed 0x80 := by decide +kernel

/-! ## C60: the listed four-byte codes -/

/-- The part of /repo/modules/from/_GB18030.txt that matters for codes beginning with 81 30 81: the rules
`8130*  ?8130` and `81308130  0180` as mktable builds them — the second turns the state reached by 81 30 81 into a
SUBMATCH_SUBROUTINE state (/repo/src/bsdconv-mktable.c, "SUBROUTINE -> SUBMATCH_SUBROUTINE"). -/
def gbSlice : Codec Priv where
  next := fun o c => match o, c with
    | 0, 0x81 => 1 | 1, 0x30 => 2 | 2, 0x81 => 3 | 2, _ => 5 | 3, 0x30 => 4 | _, _ => 0
  status := fun o => match o with
    | 1 => .cont | 2 => .cont | 3 => .submatchSubroutine | 4 => .match_ | 5 => .subroutine | _ => .deadend
  data := fun o => match o with
    | 3 => [[0x81, 0x30]] | 5 => [[0x81, 0x30]] | 4 => [[1, 0x80]] | _ => []
  conv := conv fun o => match o with
    | 3 => [[0x81, 0x30]] | 5 => [[0x81, 0x30]] | 4 => [[1, 0x80]] | _ => []

/-- The conversion from this table to raw bytes (`PASS` of the TO phase: every datum is copied). -/
def gbConvs (k : Nat) : Static Priv :=
  if k = 1 then ⟨.from_, fun _ => gbSlice, 0⟩ else ⟨.to_, fun _ => anyByte (encodeConv fun d => some [d]), 0⟩

def gbIns : Ins Priv := { ph := fun _ => { priv := fun _ => ⟨0, 0⟩ }, phasen := 2 }

/-- C60 is false: the listed code 81 30 81 30 (U+0080) is four errors when it arrives in one piece, because the
callback runs on the third byte, takes the fourth and finds no block — and U+0080 when it arrives as 81 30 81 and
30. -/
theorem C60_violated :
    (∃ (d : Delivery) (i2 : Ins Priv),
      Call gbConvs (gbIns.init gbConvs (fun _ _ _ => ⟨0, 0⟩)) ⟨some [0x81, 0x30, 0x81, 0x30], true, .file⟩ d i2 ∧
      d.bytes = [] ∧ i2.ierr = 4) ∧
    (∃ (d1 d2 : Delivery) (i2 : Ins Priv),
      Session gbConvs (gbIns.init gbConvs (fun _ _ _ => ⟨0, 0⟩))
        [⟨some [0x81, 0x30, 0x81], false, .file⟩, ⟨some [0x30], true, .file⟩] [d1, d2] i2 ∧
      d1.bytes = [] ∧ d2.bytes = [1, 0x80] ∧ i2.ierr = 0) := by
  refine ⟨⟨_, _, call_eval 60 (by decide +kernel), by decide +kernel, by decide +kernel⟩,
    ⟨_, _, _, .cons (call_eval 60 (by decide +kernel)) (.cons (call_eval 60 (by decide +kernel)) (.nil _)),
    by decide +kernel, by decide +kernel, by decide +kernel⟩⟩

end Verif.Props
