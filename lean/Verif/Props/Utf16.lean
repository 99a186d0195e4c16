import Verif.Model.Utf16
import Verif.Spec.Unicode
import Verif.Proofs.Utf8Feed
/-
C18–C21: UTF-16, UTF-32 and UCS-2.  `le` = little-endian.  A state with `status = 0` is the state at the beginning
and after every character, whatever the other fields hold.
-/
namespace Verif.Props
open Verif.Utf16 Verif.Spec
open Verif.Engine hiding Datum
open Verif.Utf8 (or_add feed_ret feed_more feed_prefix feed_ret_pos)

/-- UTF-16 with the chosen byte order. -/
def utf16 (le : Bool) (cp : Nat) : List Nat := if le then utf16le cp else utf16be cp
/-- UTF-32 with the chosen byte order. -/
def utf32 (le : Bool) (n : Nat) : List Nat := if le then utf32le n else utf32be n

/-! ## Helpers -/

theorem be1 {n : Nat} (h : n < 256) : beBytes n = [n] := by rw [beBytes, if_pos h]
theorem be2 {n : Nat} (h1 : 256 ≤ n) (h2 : n < 65536) : beBytes n = [n / 256, n % 256] := by
  rw [beBytes, if_neg (by omega), be1 (by omega)]; rfl
theorem be3 {n : Nat} (h1 : 65536 ≤ n) (h2 : n < 0x1000000) : beBytes n = [n / 65536, n / 256 % 256, n % 256] := by
  rw [beBytes, if_neg (by omega), be2 (by omega) (by omega)]
  simp only [List.cons_append, List.nil_append, List.cons.injEq, and_true]; omega
theorem be4 {n : Nat} (h1 : 0x1000000 ≤ n) (h2 : n < 2 ^ 32) :
    beBytes n = [n / 0x1000000, n / 65536 % 256, n / 256 % 256, n % 256] := by
  rw [beBytes, if_neg (by omega), be3 (by omega) (by omega)]
  simp only [List.cons_append, List.nil_append, List.cons.injEq, and_true]; omega

theorem dw_zero (l : List Nat) : (0 :: l).dropWhile (· == 0) = l.dropWhile (· == 0) := by simp
theorem dw_pos {a : Nat} (h : a ≠ 0) (l : List Nat) : (a :: l).dropWhile (· == 0) = a :: l := by
  simp [List.dropWhile_cons, h]

/-- Four bytes of a non-zero number, without leading zeros. -/
theorem datum4 {v : Nat} (h0 : v ≠ 0) (h : v < 2 ^ 32) : datum (utf32be v) = uniDatum v := by
  unfold datum uniDatum utf32be
  congr 1
  by_cases a4 : 0x1000000 ≤ v
  · rw [be4 a4 h, dw_pos (by omega)]
  · rw [show v / 0x1000000 = 0 by omega, dw_zero]
    by_cases a3 : 65536 ≤ v
    · rw [be3 a3 (by omega), show v / 65536 % 256 = v / 65536 by omega, dw_pos (by omega)]
    · rw [show v / 65536 % 256 = 0 by omega, dw_zero]
      by_cases a2 : 256 ≤ v
      · rw [be2 a2 (by omega), show v / 256 % 256 = v / 256 by omega, dw_pos (by omega)]
      · rw [show v / 256 % 256 = 0 by omega, dw_zero, be1 (by omega), show v % 256 = v by omega, dw_pos h0]

theorem datum2 {v : Nat} (h0 : v ≠ 0) (h : v < 65536) : datum [v / 256, v % 256] = uniDatum v := by
  rw [← datum4 h0 (by omega)]
  unfold datum utf32be
  rw [show v / 0x1000000 = 0 by omega, show v / 0x10000 % 256 = 0 by omega, dw_zero, dw_zero,
    show v / 256 % 256 = v / 256 by omega]

theorem datum3 {v : Nat} (h0 : v ≠ 0) (h : v < 0x1000000) : datum [v / 65536, v / 256 % 256, v % 256] = uniDatum v := by
  rw [← datum4 h0 (by omega)]
  unfold datum utf32be
  rw [show v / 0x1000000 = 0 by omega, dw_zero, show v / 0x10000 % 256 = v / 0x10000 by omega]

theorem is_lead {b : Nat} (h : b < 256) : (b &&& 0xfc == 0xd8) = decide (0xd8 ≤ b ∧ b ≤ 0xdb) := by
  revert b; decide +kernel
theorem is_trail {b : Nat} (h : b < 256) : (b &&& 0xfc == 0xdc) = decide (0xdc ≤ b ∧ b ≤ 0xdf) := by
  revert b; decide +kernel

/-- The bytes of a surrogate pair combined. -/
theorem combine {x y z w : Nat} (hy : y < 256) (hx : 0xd8 ≤ x ∧ x ≤ 0xdb) (hz : 0xdc ≤ z ∧ z ≤ 0xdf) (hw : w < 256) :
    [((((x &&& 0x03) <<< 2) ||| ((y >>> 6) &&& 0x03)) + 1) % 256, ((y <<< 2) &&& 0xfc) ||| (z &&& 0x03), w] =
      let cp := 0x10000 + (x * 256 + y - 0xD800) * 0x400 + (z * 256 + w - 0xDC00)
      [cp / 65536, cp / 256 % 256, cp % 256] := by
  have h1 : (x &&& 0x03) <<< 2 = (x - 0xd8) * 2 ^ 2 := by
    have : x = 0xd8 ∨ x = 0xd9 ∨ x = 0xda ∨ x = 0xdb := by omega
    rcases this with rfl | rfl | rfl | rfl <;> rfl
  have h2 : (y >>> 6) &&& 0x03 = y / 64 := by revert y; decide +kernel
  have h3 : (y <<< 2) &&& 0xfc = y % 64 * 2 ^ 2 := by revert y; decide +kernel
  have h4 : z &&& 0x03 = z - 0xdc := by
    have : z = 0xdc ∨ z = 0xdd ∨ z = 0xde ∨ z = 0xdf := by omega
    rcases this with rfl | rfl | rfl | rfl <;> rfl
  rw [h1, h2, h3, h4, or_add (by omega), or_add (by omega)]
  simp only [List.cons.injEq, and_true]
  omega

/-! ## Decoder -/

/-- Two bytes as a code unit. -/
def unit (le : Bool) (a b : Nat) : Nat := if le then b * 256 + a else a * 256 + b

/-- The UTF-16 decoder on every byte sequence, from the state after a character.  A unit that is not a lead
surrogate is one character (U+0000 excepted: its datum is the bare type byte); a lead surrogate must be followed
by a trail surrogate, and gives one supplementary character; a pair broken in its second unit is rejected at the
fourth byte; anything shorter waits. -/
theorem C18_decode (le : Bool) (t : Priv) (ht : t.status = 0) (bs : List Nat) (hb : ∀ b ∈ bs, b < 256) :
    (∀ a b r, bs = a :: b :: r → ¬ (0xD800 ≤ unit le a b ∧ unit le a b ≤ 0xDBFF) →
      ∃ t', t'.status = 0 ∧ (machine16 le).feed t bs =
        .ret 2 t' [if unit le a b = 0 then [1] else uniDatum (unit le a b)] .nextphase) ∧
    (∀ a b c d r, bs = a :: b :: c :: d :: r → 0xD800 ≤ unit le a b ∧ unit le a b ≤ 0xDBFF →
      ∃ t', t'.status = 0 ∧ (machine16 le).feed t bs =
        if 0xDC00 ≤ unit le c d ∧ unit le c d ≤ 0xDFFF then
          .ret 4 t' [uniDatum (0x10000 + (unit le a b - 0xD800) * 0x400 + (unit le c d - 0xDC00))] .nextphase
        else .ret 4 t' [] .deadend) ∧
    (bs.length ≤ 1 ∨ (bs.length ≤ 3 ∧ ∃ a b r, bs = a :: b :: r ∧ 0xD800 ≤ unit le a b ∧ unit le a b ≤ 0xDBFF) →
      ∃ t', (machine16 le).feed t bs = .more t' []) := by
  obtain ⟨s, b0, b1, b2, b3⟩ := t
  subst ht
  -- the two halves of the loop
  have first : ∀ a b r, a < 256 → b < 256 → ∃ x y, x < 256 ∧ y < 256 ∧ x * 256 + y = unit le a b ∧
      (∃ u, (machine16 le).feed ⟨0, b0, b1, b2, b3⟩ [a] = .more u []) ∧
      (machine16 le).feed ⟨0, b0, b1, b2, b3⟩ (a :: b :: r) =
        if 0xD800 ≤ unit le a b ∧ unit le a b ≤ 0xDBFF then
          Utf8.Fed.after (Utf8.Fed.after ((machine16 le).feed ⟨2, x, y, b2, b3⟩ r))
        else .ret 2 ⟨0, x, y, b2, b3⟩ [if unit le a b = 0 then [1] else uniDatum (unit le a b)] .nextphase := by
    intro a b r ha hb
    have dat : ∀ x y, x < 256 → y < 256 → datum [x, y] = if x * 256 + y = 0 then [1] else uniDatum (x * 256 + y) := by
      intro x y hx hy
      by_cases h0 : x * 256 + y = 0
      · rw [if_pos h0, show x = 0 by omega, show y = 0 by omega]; rfl
      · rw [if_neg h0, ← datum2 h0 (by omega), show (x * 256 + y) / 256 = x by omega,
          show (x * 256 + y) % 256 = y by omega]
    cases le with
    | false =>
      refine ⟨a, b, ha, hb, rfl, ⟨_, rfl⟩, ?_⟩
      simp only [unit, Bool.false_eq_true, if_false]
      by_cases hl : 0xd8 ≤ a ∧ a ≤ 0xdb
      · rw [if_pos (by omega), feed_more (machine16 false) (t' := ⟨1, a, b1, b2, b3⟩) _ rfl,
          feed_more (machine16 false) (t' := ⟨2, a, b, b2, b3⟩)]
        show (if a &&& 0xfc == 0xd8 then _ else _) = _
        rw [is_lead ha, if_pos (by simpa using hl)]; rfl
      · rw [if_neg (by omega), feed_more (machine16 false) (t' := ⟨1, a, b1, b2, b3⟩) _ rfl,
          feed_ret (machine16 false) (t' := ⟨0, a, b, b2, b3⟩) (out := [datum [a, b]]) (st := .nextphase), dat a b ha hb]
        · rfl
        · show (if a &&& 0xfc == 0xd8 then _ else _) = _
          rw [is_lead ha, if_neg (by simpa using hl)]; rfl
    | true =>
      refine ⟨b, a, hb, ha, rfl, ⟨_, rfl⟩, ?_⟩
      simp only [unit, if_true]
      by_cases hl : 0xd8 ≤ b ∧ b ≤ 0xdb
      · rw [if_pos (by omega), feed_more (machine16 true) (t' := ⟨1, b0, a, b2, b3⟩) _ rfl,
          feed_more (machine16 true) (t' := ⟨2, b, a, b2, b3⟩)]
        show (if b &&& 0xfc == 0xd8 then _ else _) = _
        rw [is_lead hb, if_pos (by simpa using hl)]; rfl
      · rw [if_neg (by omega), feed_more (machine16 true) (t' := ⟨1, b0, a, b2, b3⟩) _ rfl,
          feed_ret (machine16 true) (t' := ⟨0, b, a, b2, b3⟩) (out := [datum [b, a]]) (st := .nextphase), dat b a hb ha]
        · rfl
        · show (if b &&& 0xfc == 0xd8 then _ else _) = _
          rw [is_lead hb, if_neg (by simpa using hl)]; rfl
  have second : ∀ x y c d r, c < 256 → d < 256 → y < 256 → 0xd8 ≤ x ∧ x ≤ 0xdb →
      ∃ t', t'.status = 0 ∧ (machine16 le).feed ⟨2, x, y, b2, b3⟩ (c :: d :: r) =
        if 0xDC00 ≤ unit le c d ∧ unit le c d ≤ 0xDFFF then
          .ret 2 t' [uniDatum (0x10000 + (x * 256 + y - 0xD800) * 0x400 + (unit le c d - 0xDC00))] .nextphase
        else .ret 2 t' [] .deadend := by
    intro x y c d r hc hd hy hx
    have fin : ∀ z w, z < 256 → w < 256 → 0xdc ≤ z ∧ z ≤ 0xdf →
        datum [((((x &&& 0x03) <<< 2) ||| ((y >>> 6) &&& 0x03)) + 1) % 256, ((y <<< 2) &&& 0xfc) ||| (z &&& 0x03), w] =
          uniDatum (0x10000 + (x * 256 + y - 0xD800) * 0x400 + (z * 256 + w - 0xDC00)) := by
      intro z w hz hw hzz
      rw [combine hy hx hzz hw]
      exact datum3 (by omega) (by omega)
    cases le with
    | false =>
      refine ⟨⟨0, x, y, c, d⟩, rfl, ?_⟩
      simp only [unit, Bool.false_eq_true, if_false]
      rw [feed_more (machine16 false) (t' := ⟨3, x, y, c, b3⟩) _ rfl]
      by_cases hl : 0xdc ≤ c ∧ c ≤ 0xdf
      · rw [if_pos (by omega), feed_ret (machine16 false) (t' := ⟨0, x, y, c, d⟩)
          (out := [uniDatum (0x10000 + (x * 256 + y - 0xD800) * 0x400 + (c * 256 + d - 0xDC00))]) (st := .nextphase)]
        · rfl
        · show (if c &&& 0xfc == 0xdc then _ else _) = _
          rw [is_trail hc, if_pos (by simpa using hl), ← fin c d hc hd hl]; rfl
      · rw [if_neg (by omega), feed_ret (machine16 false) (t' := ⟨0, x, y, c, d⟩) (out := []) (st := .deadend)]
        · rfl
        · show (if c &&& 0xfc == 0xdc then _ else _) = _
          rw [is_trail hc, if_neg (by simpa using hl)]; rfl
    | true =>
      refine ⟨⟨0, x, y, d, c⟩, rfl, ?_⟩
      simp only [unit, if_true]
      rw [feed_more (machine16 true) (t' := ⟨3, x, y, b2, c⟩) _ rfl]
      by_cases hl : 0xdc ≤ d ∧ d ≤ 0xdf
      · rw [if_pos (by omega), feed_ret (machine16 true) (t' := ⟨0, x, y, d, c⟩)
          (out := [uniDatum (0x10000 + (x * 256 + y - 0xD800) * 0x400 + (d * 256 + c - 0xDC00))]) (st := .nextphase)]
        · rfl
        · show (if d &&& 0xfc == 0xdc then _ else _) = _
          rw [is_trail hd, if_pos (by simpa using hl), ← fin d c hd hc hl]; rfl
      · rw [if_neg (by omega), feed_ret (machine16 true) (t' := ⟨0, x, y, d, c⟩) (out := []) (st := .deadend)]
        · rfl
        · show (if d &&& 0xfc == 0xdc then _ else _) = _
          rw [is_trail hd, if_neg (by simpa using hl)]; rfl
  refine ⟨?_, ?_, ?_⟩
  · rintro a b r rfl hl
    obtain ⟨x, y, _, _, _, _, h⟩ := first a b r (hb a (by simp)) (hb b (by simp))
    rw [if_neg hl] at h
    exact ⟨_, rfl, h⟩
  · rintro a b c d r rfl hl
    obtain ⟨x, y, hx, hy, hxy, _, h⟩ := first a b (c :: d :: r) (hb a (by simp)) (hb b (by simp))
    rw [if_pos hl] at h
    obtain ⟨t', h1, h2⟩ := second x y c d r (hb c (by simp)) (hb d (by simp)) hy (by omega)
    refine ⟨t', h1, ?_⟩
    rw [h, h2, hxy]
    split <;> rfl
  · rintro (h | ⟨h, a, b, r, rfl, hl⟩)
    · match bs, h, hb with
      | [], _, _ => exact ⟨_, rfl⟩
      | [a], _, hb =>
        obtain ⟨_, _, _, _, _, hu, _⟩ := first a 0 [] (hb a (by simp)) (by decide)
        exact hu
      | _ :: _ :: _, h, _ => simp at h
    · obtain ⟨x, y, hx, hy, hxy, _, h'⟩ := first a b r (hb a (by simp)) (hb b (by simp))
      rw [if_pos hl] at h'
      match r, h, h' with
      | [], _, h' => exact ⟨_, h'⟩
      | [c], _, h' =>
        cases le
        · exact ⟨_, h'⟩
        · exact ⟨_, h'⟩
      | _ :: _ :: _, h, _ => simp at h

-- Non-vacuity: U+1F600 in both orders, a lone lead, a lone trail.
example : (machine16 false).feed ⟨0, 9, 9, 9, 9⟩ [0xD8, 0x3D, 0xDE, 0x00, 0x41] =
      .ret 4 ⟨0, 0xD8, 0x3D, 0xDE, 0x00⟩ [uniDatum 0x1F600] .nextphase ∧
    (machine16 true).feed ⟨0, 9, 9, 9, 9⟩ [0x3D, 0xD8, 0x00, 0xDE] =
      .ret 4 ⟨0, 0xD8, 0x3D, 0xDE, 0x00⟩ [uniDatum 0x1F600] .nextphase ∧
    (machine16 false).feed ⟨0, 0, 0, 0, 0⟩ [0xD8, 0x3D, 0x00, 0x41] = .ret 4 ⟨0, 0xD8, 0x3D, 0x00, 0x41⟩ [] .deadend ∧
    (machine16 false).feed ⟨0, 0, 0, 0, 0⟩ [0xDC, 0x00] = .ret 2 ⟨0, 0xDC, 0x00, 0, 0⟩ [uniDatum 0xDC00] .nextphase := by
  decide +kernel

/-! ## C18 -/

theorem pad_one (a : Nat) : pad 2 [a] = [0, a] := rfl
theorem pad_two (a b : Nat) : pad 2 [a, b] = [a, b] := rfl

theorem swap2_flat (us : List Nat) : swap2 (us.flatMap be16) = us.flatMap le16 := by
  induction us with
  | nil => rfl
  | cons u us ih => simp only [List.flatMap_cons, be16, le16, List.cons_append, List.nil_append, swap2, ih]

/-- The encoder gives the standard UTF-16 form of every code point (lone surrogates pass through as they are). -/
theorem C18_encode (le : Bool) (cp : Nat) (h : cp ≤ 0x10FFFF) : encode16 le (uniDatum cp) = some [utf16 le cp] := by
  have key : out16 (uniDatum cp) = utf16be cp := by
    unfold out16
    unfold uniDatum utf16be utf16Units
    by_cases h3 : cp < 0x10000
    · rw [if_pos h3]
      by_cases h1 : cp < 256
      · rw [be1 h1]
        simp [pad_one, be16]; omega
      · rw [be2 (by omega) h3]
        simp [pad_two, be16]
    · rw [if_neg h3, be3 (by omega) (by omega)]
      have hc : (cp / 65536 + 255) % 256 = cp / 65536 - 1 := by omega
      have q : ∀ c, c < 16 → ∀ y, y < 256 → 0xd8 ||| ((c >>> 2) &&& 0x03) = 0xd8 + c / 4 ∧
          ((c <<< 6) &&& 0xc0) ||| ((y >>> 2) &&& 0x3f) = c % 4 * 64 + y / 4 ∧ 0xdc ||| (y &&& 0x03) = 0xdc + y % 4 := by
        intro c hc y hy
        refine ⟨by revert c; decide +kernel, ?_, by revert y; decide +kernel⟩
        have e1 : (c <<< 6) &&& 0xc0 = c % 4 * 2 ^ 6 := by revert c; decide +kernel
        have e2 : (y >>> 2) &&& 0x3f = y / 4 := by revert y; decide +kernel
        rw [e1, e2, or_add (by omega)]
      obtain ⟨q1, q2, q3⟩ := q (cp / 65536 - 1) (by omega) (cp / 256 % 256) (by omega)
      simp only [List.length_cons, List.length_nil, List.drop_succ_cons, List.drop_zero, List.getD_cons_zero,
        List.getD_cons_succ, hc, q1, q2, q3, List.flatMap_cons, List.flatMap_nil, be16, List.append_nil]
      rw [if_pos (by decide)]
      simp only [List.cons_append, List.nil_append, List.cons.injEq, and_true]
      omega
  unfold encode16
  rw [key]
  unfold utf16
  cases le
  · rfl
  · simp only [if_true]; unfold utf16be utf16le; rw [swap2_flat]

/-- Decoding the standard form of a non-surrogate code point from U+0001 to U+10FFFF, whatever follows it. -/
theorem C18_decode_form (le : Bool) (t : Priv) (ht : t.status = 0) (cp : Nat) (h1 : 1 ≤ cp) (h2 : cp ≤ 0x10FFFF)
    (h3 : ¬ Surrogate cp) (rest : List Nat) (hr : ∀ b ∈ rest, b < 256) :
    ∃ t', t'.status = 0 ∧ (machine16 le).feed t (utf16 le cp ++ rest) =
      .ret (utf16 le cp).length t' [uniDatum cp] .nextphase := by
  unfold Surrogate at h3
  have hun : ∀ u, u < 65536 → ∃ a b, a < 256 ∧ b < 256 ∧ (if le then le16 u else be16 u) = [a, b] ∧ unit le a b = u := by
    intro u hu
    cases le
    · exact ⟨u / 256, u % 256, by omega, by omega, rfl, by simp [unit]; omega⟩
    · exact ⟨u % 256, u / 256, by omega, by omega, rfl, by simp [unit]; omega⟩
  have hform : utf16 le cp = (utf16Units cp).flatMap (fun u => if le then le16 u else be16 u) := by
    cases le <;> rfl
  unfold utf16Units at hform
  by_cases hb : cp < 0x10000
  · rw [if_pos hb] at hform
    obtain ⟨a, b, ha, hb', he, hu⟩ := hun cp hb
    rw [hform]
    simp only [List.flatMap_cons, List.flatMap_nil, he, List.append_nil]
    obtain ⟨h, _, _⟩ := C18_decode le t ht ([a, b] ++ rest) (by
      intro x hx; simp at hx; rcases hx with rfl | rfl | hx <;> first | assumption | exact hr _ hx)
    obtain ⟨t', h5, h6⟩ := h a b rest rfl (by omega)
    rw [if_neg (by omega), hu] at h6
    exact ⟨t', h5, h6⟩
  · rw [if_neg hb] at hform
    obtain ⟨a, b, ha, hb', he, hu⟩ := hun (0xD800 + (cp - 0x10000) / 0x400) (by omega)
    obtain ⟨c, d, hc, hd, he2, hu2⟩ := hun (0xDC00 + (cp - 0x10000) % 0x400) (by omega)
    rw [hform]
    simp only [List.flatMap_cons, List.flatMap_nil, he, he2, List.append_nil]
    obtain ⟨_, h, _⟩ := C18_decode le t ht ([a, b] ++ [c, d] ++ rest) (by
      intro x hx; simp at hx; rcases hx with rfl | rfl | rfl | rfl | hx <;> first | assumption | exact hr _ hx)
    obtain ⟨t', h5, h6⟩ := h a b c d rest rfl (by omega)
    rw [if_pos (by omega), hu, hu2] at h6
    refine ⟨t', h5, h6.trans ?_⟩
    rw [show 0x10000 + (0xD800 + (cp - 0x10000) / 0x400 - 0xD800) * 0x400 +
      (0xDC00 + (cp - 0x10000) % 0x400 - 0xDC00) = cp by omega]
    rfl

/-- Encode, then decode. -/
theorem C18_round_trip (le : Bool) (t : Priv) (ht : t.status = 0) (cp : Nat) (h1 : 1 ≤ cp) (h2 : cp ≤ 0x10FFFF)
    (h3 : ¬ Surrogate cp) (rest : List Nat) (hr : ∀ b ∈ rest, b < 256) :
    ∃ bytes t', encode16 le (uniDatum cp) = some [bytes] ∧ (bytes.length = 2 ∨ bytes.length = 4) ∧ t'.status = 0 ∧
      (machine16 le).feed t (bytes ++ rest) = .ret bytes.length t' [uniDatum cp] .nextphase := by
  obtain ⟨t', h4, h5⟩ := C18_decode_form le t ht cp h1 h2 h3 rest hr
  refine ⟨_, t', C18_encode le cp h2, ?_, h4, h5⟩
  unfold utf16 utf16le utf16be utf16Units
  cases le <;> by_cases h : cp < 0x10000 <;> simp [h, be16, le16]

/-! ## C19 -/

/-- Up to U+10FFFF the encoder is injective. -/
theorem C19_injective_partial (le : Bool) (a b : Nat) (ha : a ≤ 0x10FFFF) (hb : b ≤ 0x10FFFF)
    (h : encode16 le (uniDatum a) = encode16 le (uniDatum b)) : a = b := by
  rw [C18_encode le a ha, C18_encode le b hb] at h
  simp only [Option.some.injEq, List.cons.injEq, and_true] at h
  have hbe : utf16be a = utf16be b := by
    cases le
    · exact h
    · have inv : ∀ us : List Nat, swap2 (us.flatMap le16) = us.flatMap be16 := by
        intro us
        induction us with
        | nil => rfl
        | cons u us ih => simp only [List.flatMap_cons, be16, le16, List.cons_append, List.nil_append, swap2, ih]
      have := congrArg swap2 h
      simp only [utf16, if_true, utf16le] at this
      rw [inv, inv] at this
      exact this
  unfold utf16be utf16Units at hbe
  by_cases h1 : a < 0x10000 <;> by_cases h2 : b < 0x10000 <;> simp [h1, h2, be16] at hbe <;> omega

/-- Beyond, it is not: U+110000 is written as U+10000, and a fourth byte is ignored. -/
theorem C19_violated (le : Bool) :
    encode16 le (uniDatum 0x110000) = encode16 le (uniDatum 0x10000) ∧
    encode16 le (uniDatum 0x01000001) = encode16 le (uniDatum 0x010000) ∧
    encode16 le (uniDatum 0x110000) ≠ none := by
  cases le <;> decide +kernel

/-! ## C20 -/

/-- The UTF-32 encoder. -/
theorem C20_encode (le : Bool) (v : Nat) (h : v < 2 ^ 32) : encode32 le (uniDatum v) = some [utf32 le v] := by
  have : pad 4 ((uniDatum v).drop 1) = utf32be v := by
    unfold uniDatum utf32be
    by_cases h1 : v < 256
    · rw [be1 h1]; simp [pad, List.replicate]; omega
    · by_cases h2 : v < 65536
      · rw [be2 (by omega) h2]; simp [pad, List.replicate]; omega
      · by_cases h3 : v < 0x1000000
        · rw [be3 (by omega) h3]; simp [pad, List.replicate]; omega
        · rw [be4 (by omega) h]; simp [pad]
  unfold encode32
  simp only [this]
  cases le <;> rfl

/-- It writes exactly four bytes, inside its buffer. -/
theorem C20_fits (d : List Nat) (h1 : 2 ≤ d.length) (h : d.length ≤ 5) : written32 d = 4 := by
  unfold written32
  simp only []
  rw [if_pos (by omega)]
  omega

/-- For data of more than four bytes it writes 4 GiB. -/
theorem C20_overrun_violated (d : List Nat) (h : 6 ≤ d.length) (h2 : d.length ≤ 2 ^ 32) : written32 d = 2 ^ 32 + 4 := by
  unfold written32
  simp only []
  rw [if_neg (by omega)]
  omega

/-- The UTF-32 decoder takes any four bytes. -/
theorem C20_decode_partial (le : Bool) (t : Priv) (ht : t.status = 0) (v : Nat) (h0 : v ≠ 0) (h : v < 2 ^ 32)
    (rest : List Nat) :
    ∃ t', t'.status = 0 ∧ (machine32 le).feed t (utf32 le v ++ rest) = .ret 4 t' [uniDatum v] .nextphase := by
  obtain ⟨s, b0, b1, b2, b3⟩ := t
  subst ht
  refine ⟨⟨0, v / 0x1000000, v / 0x10000 % 256, v / 256 % 256, v % 256⟩, rfl, ?_⟩
  have hd := datum4 h0 h
  unfold utf32be at hd
  cases le
  · show (machine32 false).feed _ (v / 0x1000000 :: v / 0x10000 % 256 :: v / 256 % 256 :: v % 256 :: rest) = _
    rw [feed_more _ (t' := ⟨1, v / 0x1000000, b1, b2, b3⟩) _ rfl,
      feed_more _ (t' := ⟨2, v / 0x1000000, v / 0x10000 % 256, b2, b3⟩) _ rfl,
      feed_more _ (t' := ⟨3, v / 0x1000000, v / 0x10000 % 256, v / 256 % 256, b3⟩) _ rfl,
      feed_ret _ (t' := ⟨0, v / 0x1000000, v / 0x10000 % 256, v / 256 % 256, v % 256⟩) (out := [uniDatum v])
        (st := .nextphase)]
    · rfl
    · rw [← hd]; rfl
  · show (machine32 true).feed _ (v % 256 :: v / 256 % 256 :: v / 0x10000 % 256 :: v / 0x1000000 :: rest) = _
    rw [feed_more _ (t' := ⟨1, b0, b1, b2, v % 256⟩) _ rfl,
      feed_more _ (t' := ⟨2, b0, b1, v / 256 % 256, v % 256⟩) _ rfl,
      feed_more _ (t' := ⟨3, b0, v / 0x10000 % 256, v / 256 % 256, v % 256⟩) _ rfl,
      feed_ret _ (t' := ⟨0, v / 0x1000000, v / 0x10000 % 256, v / 256 % 256, v % 256⟩) (out := [uniDatum v])
        (st := .nextphase)]
    · rfl
    · rw [← hd]; rfl

/-- Encode, then decode, for every number but zero. -/
theorem C20_round_trip_partial (le : Bool) (t : Priv) (ht : t.status = 0) (v : Nat) (h0 : v ≠ 0) (h : v < 2 ^ 32)
    (rest : List Nat) :
    ∃ bytes t', encode32 le (uniDatum v) = some [bytes] ∧ bytes.length = 4 ∧ t'.status = 0 ∧
      (machine32 le).feed t (bytes ++ rest) = .ret 4 t' [uniDatum v] .nextphase := by
  obtain ⟨t', h1, h2⟩ := C20_decode_partial le t ht v h0 h rest
  exact ⟨_, t', C20_encode le v h, by cases le <;> rfl, h1, h2⟩

/-- U+0000 does not come back: it is decoded to the bare type byte `01`, which the encoders' table `01*` does not
match. -/
theorem C20_zero_violated (le : Bool) (t : Priv) (ht : t.status = 0) :
    encode32 le (uniDatum 0) = some [[0, 0, 0, 0]] ∧
    ∃ t', (machine32 le).feed t [0, 0, 0, 0] = .ret 4 t' [[1]] .nextphase ∧ [1] ≠ uniDatum 0 := by
  refine ⟨by cases le <;> decide +kernel, ?_⟩
  obtain ⟨s, b0, b1, b2, b3⟩ := t
  subst ht
  refine ⟨⟨0, 0, 0, 0, 0⟩, by cases le <;> rfl, ?_⟩
  unfold uniDatum; rw [be1 (by decide)]; decide

example : (machine32 true).feed ⟨0, 0, 0, 0, 0⟩ [0x00, 0xF6, 0x01, 0x00] =
    .ret 4 ⟨0, 0, 1, 0xF6, 0⟩ [uniDatum 0x1F600] .nextphase := by decide +kernel

/-! ## C21 -/

/-- UCS-2 of the BMP is the code point in two bytes. -/
theorem C21_bmp (le : Bool) (cp : Nat) (h : cp < 0x10000) :
    encodeUcs2 le (uniDatum cp) = some [if le then le16 cp else be16 cp] := by
  unfold encodeUcs2 uniDatum
  by_cases h1 : cp < 256
  · rw [be1 h1]
    simp [pad_one, swap2, be16, le16]
    cases le <;> simp <;> omega
  · rw [be2 (by omega) h]
    simp [pad_two, swap2, be16, le16]

/-- Anything longer is refused. -/
theorem C21_refuses (le : Bool) (d : List Nat) : encodeUcs2 le d = none ↔ 3 < d.length := by
  unfold encodeUcs2
  by_cases h : d.length > 3
  · simp [h]
  · simp [h]

/-- All code points above the BMP are refused. -/
theorem C21_supplementary (le : Bool) (cp : Nat) (h : 0x10000 ≤ cp) : encodeUcs2 le (uniDatum cp) = none := by
  rw [C21_refuses]
  have e2 : ∀ n, 256 ≤ n → (beBytes n).length = (beBytes (n / 256)).length + 1 := by
    intro n hn; rw [beBytes, if_neg (by omega)]; simp
  have el : ∀ n, 1 ≤ (beBytes n).length := by
    intro n
    by_cases hn : n < 256
    · rw [be1 hn]; simp
    · rw [e2 n (by omega)]; omega
  show 3 < (beBytes cp).length + 1
  rw [e2 cp (by omega), e2 (cp / 256) (by omega)]
  have := el (cp / 256 / 256)
  omega

/-- Whatever is accepted takes two bytes. -/
theorem C21_two_bytes (le : Bool) (d : List Nat) (out : List (List Nat)) (h2 : 2 ≤ d.length)
    (h : encodeUcs2 le d = some out) : ∃ b, out = [b] ∧ b.length = 2 := by
  have hl : d.length ≤ 3 := by
    rcases Nat.lt_or_ge 3 d.length with hh | hh
    · rw [(C21_refuses le d).2 hh] at h; simp at h
    · exact hh
  unfold encodeUcs2 at h
  rw [if_neg (by omega)] at h
  simp only [Option.some.injEq] at h
  subst h
  refine ⟨_, rfl, ?_⟩
  match d, h2, hl with
  | [_, b], _, _ => cases le <;> rfl
  | [_, b, c], _, _ => cases le <;> rfl

end Verif.Props
