import Verif.Proofs.Utf8Feed
import Verif.Props.Engine
/-
C13–C17: the UTF-8 decoder and encoder.  `(machine o).feed t bs` is the result of the decoder's callback on the
bytes `bs`: `.ret k t out st` = it returned status `st` at the `k`-th byte having output `out`, `.more t out` = it
used all bytes and waits for more.  `Priv.zero` is the state at the beginning and after every character.
-/
namespace Verif.Props
open Verif.Utf8 Verif.Spec
open Verif.Engine hiding Datum

/-! ## Specification -/

/-- An `n`-byte form of `cp` whose length the options admit. -/
def FormOk (o : Opts) (n cp : Nat) : Prop :=
  2 ≤ n ∧ n ≤ (if o.super then 6 else 4) ∧ cp < utf8Cap n ∧ (o.overlong ∨ utf8Min n ≤ cp)

/-- A form the decoder is to accept: an admitted form of an admitted code point. -/
def Allowed (o : Opts) (n cp : Nat) : Prop :=
  FormOk o n cp ∧ (o.loose ∨ ¬ Surrogate cp) ∧ (o.nul ∨ cp ≠ 0)

instance (o : Opts) (n cp : Nat) : Decidable (FormOk o n cp) := inferInstanceAs (Decidable (_ ∧ _))
instance (o : Opts) (n cp : Nat) : Decidable (Allowed o n cp) := inferInstanceAs (Decidable (_ ∧ _))

/-- The code points the decoder takes by default. -/
def Multibyte (cp : Nat) : Prop := 0x80 ≤ cp ∧ cp < 0x200000 ∧ ¬ Surrogate cp

example : Multibyte 0x20AC ∧ Multibyte 0x1F600 ∧ ¬ Multibyte 0xDC00 ∧ ¬ Multibyte 0x41 := by
  unfold Multibyte; decide

/-! ## Helpers -/

theorem formOk_iff (o : Opts) (n cp : Nat) : FormOk o n cp ↔ Readable o n cp := by
  constructor
  · rintro ⟨a, b, c, d⟩
    cases hs : o.super <;> simp only [hs, Bool.false_eq_true, if_false, if_true] at b
    · exact ⟨a, by omega, Or.inl b, c, d.symm⟩
    · exact ⟨a, b, Or.inr hs, c, d.symm⟩
  · rintro ⟨a, b, c, d, e⟩
    refine ⟨a, ?_, d, e.symm⟩
    rcases c with c | c
    · split <;> omega
    · rw [if_pos c]; exact b

theorem cap_lt {n v : Nat} (h2 : 2 ≤ n) (h6 : n ≤ 6) (h : v < utf8Cap n) : v < 2 ^ 32 := by
  rcases cases_n h2 h6 with rfl | rfl | rfl | rfl | rfl <;> simp only [utf8Cap, Nat.reduceSub, Nat.reducePow, Nat.reduceMul] at h <;> omega

theorem feed_allowed (o : Opts) (hc : o.cesu = false) {n cp : Nat} (h : Allowed o n cp) (rest : List Nat) :
    (machine o).feed .zero (utf8Form n cp ++ rest) = .ret n .zero [uniDatum cp] .nextphase := by
  obtain ⟨hf, hs, hz⟩ := h
  have hr := (formOk_iff _ _ _).1 hf
  refine feed_form o .zero hr ?_ rest
  rw [commit_plain o hc 0 (cap_lt hr.two hr.six hr.cap), if_neg]
  rintro (⟨a, b⟩ | ⟨a, b⟩)
  · rcases hs with hs | hs
    · simp [hs] at b
    · exact hs a
  · rcases hz with hz | hz
    · simp [hz] at b
    · exact hz a

theorem feed_refused (o : Opts) (hc : o.cesu = false) {n cp : Nat} (h : FormOk o n cp) (hn : ¬ Allowed o n cp)
    (rest : List Nat) :
    (machine o).feed .zero (utf8Form n cp ++ rest) = .ret n .zero [] .deadend := by
  have hr := (formOk_iff _ _ _).1 h
  refine feed_form o .zero hr ?_ rest
  rw [commit_plain o hc 0 (cap_lt hr.two hr.six hr.cap), if_pos]
  · rfl
  · refine Classical.byContradiction fun hh => hn ⟨h, ?_, ?_⟩
    · cases hl : o.loose
      · right; intro hs; exact hh (Or.inl ⟨hs, hl⟩)
      · left; rfl
    · cases hl : o.nul
      · right; intro hs; exact hh (Or.inr ⟨hs, hl⟩)
      · left; rfl

/-- No result can be reached before the last byte of an admitted form. -/
theorem feed_form_len (o : Opts) (hc : o.cesu = false) {n cp : Nat} (h : FormOk o n cp) :
    ∃ out st, (machine o).feed .zero (utf8Form n cp) = .ret n .zero out st := by
  by_cases ha : Allowed o n cp
  · have := feed_allowed o hc ha []
    rw [List.append_nil] at this
    exact ⟨_, _, this⟩
  · have := feed_refused o hc h ha []
    rw [List.append_nil] at this
    exact ⟨_, _, this⟩

theorem form_len {o : Opts} {n cp : Nat} (h : FormOk o n cp) : (utf8Form n cp).length = n :=
  utf8Form_length (by have := h.1; omega) cp

/-! ## C15 -/

/-- For every combination of `loose`, `nul`, `overlong` and `super`, and every byte sequence, one of three things
happens:
* it begins with an allowed form: one character, the encoded code point, is output at the last byte of that form;
* it is a proper beginning of an admitted form: nothing is output and the decoder waits for more;
* it is rejected at some byte, with no output; the bytes before that byte are a proper beginning of an admitted
  form, and the bytes up to and including it begin no allowed form. -/
theorem C15_classification (o : Opts) (hc : o.cesu = false) (bs : List Nat) (hb : ∀ b ∈ bs, b < 256) :
    (∃ n cp rest, Allowed o n cp ∧ bs = utf8Form n cp ++ rest ∧
      (machine o).feed .zero bs = .ret n .zero [uniDatum cp] .nextphase) ∨
    (∃ n cp tl, FormOk o n cp ∧ tl ≠ [] ∧ utf8Form n cp = bs ++ tl ∧
      ∃ t, (machine o).feed .zero bs = .more t []) ∨
    (∃ k, (machine o).feed .zero bs = .ret k .zero [] .deadend ∧
      (∃ n cp, FormOk o n cp ∧ bs.take (k - 1) <+: utf8Form n cp ∧ k - 1 < n) ∧
      ∀ n cp, Allowed o n cp → ¬ bs.take k <+: utf8Form n cp ∧ ¬ utf8Form n cp <+: bs) := by
  have nopre : ∀ k, (machine o).feed .zero bs = .ret k .zero [] .deadend →
      ∀ n cp, Allowed o n cp → ¬ bs.take k <+: utf8Form n cp ∧ ¬ utf8Form n cp <+: bs := by
    intro k hk n cp ha
    constructor
    · rintro ⟨z, hz⟩
      have hkl := feed_ret_pos _ hk
      have hlen : (bs.take k).length = k := by rw [List.length_take]; omega
      have h1 : (machine o).feed .zero (utf8Form n cp) = .ret k .zero [] .deadend := by
        refine feed_prefix _ hk ?_ ?_
        · rw [← hz, List.take_append_of_le_length (by omega), List.take_take, Nat.min_self]
        · rw [← hz, List.length_append]; omega
      have h2 := feed_allowed o hc ha []
      rw [List.append_nil, h1] at h2
      simp at h2
    · rintro ⟨z, hz⟩
      have h2 := feed_allowed o hc ha z
      rw [hz, hk] at h2
      simp at h2
  rcases form_cases o .zero bs hb with ⟨n, v, rest, hr, he⟩ | ⟨n, v, tl, hr, ht, he⟩ | ⟨k, hk, n, v, hr, hp⟩
  · have hf := (formOk_iff _ _ _).2 hr
    by_cases ha : Allowed o n v
    · exact Or.inl ⟨n, v, rest, ha, he, by rw [he]; exact feed_allowed o hc ha rest⟩
    · have hd := feed_refused o hc hf ha rest
      rw [← he] at hd
      refine Or.inr (Or.inr ⟨n, hd, ⟨n, v, hf, ?_, by have := hr.two; omega⟩, nopre n hd⟩)
      rw [he, List.take_append_of_le_length (by rw [form_len hf]; omega)]
      exact List.take_prefix _ _
  · have hf := (formOk_iff _ _ _).2 hr
    refine Or.inr (Or.inl ⟨n, v, tl, hf, ht, he, ?_⟩)
    cases hfe : (machine o).feed .zero bs with
    | more t out => exact ⟨t, by rw [feed_more_silent o bs _ _ _ hfe]⟩
    | ret k t out st =>
      exfalso
      have hkl := feed_ret_pos _ hfe
      obtain ⟨out', st', hl⟩ := feed_form_len o hc hf
      have : (machine o).feed .zero (utf8Form n v) = .ret k t out st := by
        refine feed_prefix _ hfe ?_ ?_
        · rw [he, List.take_append_of_le_length hkl.2]
        · rw [he, List.length_append]; omega
      rw [hl] at this
      simp only [Fed.ret.injEq] at this
      have hlen := form_len hf
      rw [he, List.length_append] at hlen
      have : tl.length ≠ 0 := by simpa using ht
      omega
  · have hk' : (machine o).feed .zero bs = .ret k .zero [] .deadend := hk
    have hf := (formOk_iff _ _ _).2 hr
    refine Or.inr (Or.inr ⟨k, hk', ⟨n, v, hf, hp, ?_⟩, nopre k hk'⟩)
    have hkl := feed_ret_pos _ hk
    have h1 := hp.length_le
    rw [List.length_take, form_len hf] at h1
    -- equality would make `bs` contain a whole form
    rcases Nat.lt_or_ge (k - 1) n with h | h
    · exact h
    · exfalso
      have hkn : k - 1 = n := by omega
      obtain ⟨z, hz⟩ := hp
      have hzl := congrArg List.length hz
      rw [List.length_append, List.length_take, form_len hf] at hzl
      have hz0 : z = [] := List.eq_nil_of_length_eq_zero (by omega)
      rw [hz0, List.append_nil] at hz
      obtain ⟨out', st', hl⟩ := feed_form_len o hc hf
      have : (machine o).feed .zero bs = .ret n .zero out' st' := by
        refine feed_prefix _ hl ?_ (by omega)
        rw [← hz, List.take_take, ← hkn, Nat.min_self]
      rw [this] at hk'
      simp only [Fed.ret.injEq] at hk'
      omega

/-- Exactly the allowed forms give a character. -/
theorem C15_accepts_iff (o : Opts) (hc : o.cesu = false) (bs : List Nat) (hb : ∀ b ∈ bs, b < 256)
    (out : List (List Nat)) :
    (∃ k t, (machine o).feed .zero bs = .ret k t out .nextphase) ↔
      ∃ n cp rest, Allowed o n cp ∧ bs = utf8Form n cp ++ rest ∧ out = [uniDatum cp] := by
  constructor
  · rintro ⟨k, t, h⟩
    rcases C15_classification o hc bs hb with ⟨n, v, rest, ha, he, hf⟩ | ⟨n, v, tl, _, _, _, t', hf⟩ | ⟨k', hf, _⟩
    · rw [hf] at h
      simp only [Fed.ret.injEq] at h
      exact ⟨n, v, rest, ha, he, h.2.2.1.symm⟩
    · rw [hf] at h; simp at h
    · rw [hf] at h; simp at h
  · rintro ⟨n, v, rest, ha, rfl, rfl⟩
    exact ⟨n, .zero, feed_allowed o hc ha rest⟩

/-- No option, `cesu` included, changes anything for a form accepted by default. -/
theorem C15_default_unchanged (o : Opts) {n cp : Nat} (h : Allowed {} n cp) (rest : List Nat) :
    (machine o).feed .zero (utf8Form n cp ++ rest) = .ret n .zero [uniDatum cp] .nextphase := by
  obtain ⟨⟨h2, h4, hcap, hmin⟩, hs, _⟩ := h
  simp only [Bool.false_eq_true, if_false, false_or] at h4 hmin hs
  have hr : Readable o n cp := ⟨h2, by omega, Or.inl h4, hcap, Or.inl hmin⟩
  have hv := cap_lt hr.two hr.six hcap
  have h0 : cp ≠ 0 := by
    rintro rfl
    rcases cases_n hr.two hr.six with rfl | rfl | rfl | rfl | rfl <;> simp [utf8Min, utf8Cap] at hmin
  refine feed_form o .zero hr ?_ rest
  have hz : Ucs.of cp ≠ .zero := by
    intro hh
    have := congrArg Ucs.val hh
    rw [Ucs.val_of hv] at this
    exact h0 this
  unfold Surrogate at hs
  unfold commit pass
  simp only [Ucs.val_of hv]
  rw [if_neg (by omega), if_neg (by omega)]
  simp [hz, datum_of hv, Priv.zero]

-- All options on: an overlong NUL, a lone surrogate and a six-byte form are admitted; none of them by default.
example : Allowed ⟨false, true, true, true, true⟩ 2 0 ∧ Allowed ⟨false, true, true, true, true⟩ 3 0xD800 ∧
    Allowed ⟨false, true, true, true, true⟩ 6 0x7FFFFFFF ∧ ¬ Allowed {} 2 0 ∧ ¬ Allowed {} 3 0xD800 ∧
    ¬ Allowed {} 6 0x7FFFFFFF ∧ Allowed {} 3 0x20AC := by
  decide

/-! ## C13 -/

theorem default_allowed_iff (n cp : Nat) : Allowed {} n cp ↔ Multibyte cp ∧ utf8Form n cp = utf8 cp ∧ 2 ≤ n ∧ n ≤ 4 := by
  unfold Allowed FormOk Multibyte
  simp only [Bool.false_eq_true, if_false, false_or]
  constructor
  · rintro ⟨⟨h2, h4, hcap, hmin⟩, hs, h0⟩
    have hn : n = 2 ∨ n = 3 ∨ n = 4 := by omega
    rcases hn with rfl | rfl | rfl <;> simp only [utf8Cap, utf8Min, if_true, Nat.reduceSub, Nat.reducePow,
      Nat.reduceMul, Nat.reduceEqDiff, if_false] at hcap hmin <;>
      refine ⟨⟨by omega, by omega, hs⟩, ?_, by omega, by omega⟩ <;> unfold utf8
    · rw [if_neg (by omega), if_pos (by omega)]
    · rw [if_neg (by omega), if_neg (by omega), if_pos (by omega)]
    · rw [if_neg (by omega), if_neg (by omega), if_neg (by omega), if_pos (by omega)]
  · rintro ⟨⟨hl, hu, hs⟩, hf, h2, h4⟩
    have hlen := congrArg List.length hf
    rw [utf8Form_length (by omega)] at hlen
    unfold utf8 at hlen
    rw [if_neg (by omega)] at hlen
    have hn : n = 2 ∨ n = 3 ∨ n = 4 := by omega
    refine ⟨⟨h2, h4, ?_⟩, hs, by omega⟩
    by_cases c1 : cp < 0x800
    · rw [if_pos c1, utf8Form_length (by omega)] at hlen
      subst hlen; simp [utf8Cap, utf8Min]; omega
    · rw [if_neg c1] at hlen
      by_cases c2 : cp < 0x10000
      · rw [if_pos c2, utf8Form_length (by omega)] at hlen
        subst hlen; simp [utf8Cap, utf8Min]; omega
      · rw [if_neg c2, if_pos hu, utf8Form_length (by omega)] at hlen
        subst hlen; simp [utf8Cap, utf8Min]; omega

theorem default_allowed (cp : Nat) (h : Multibyte cp) : ∃ n, Allowed {} n cp ∧ utf8Form n cp = utf8 cp := by
  obtain ⟨hl, hu, hs⟩ := h
  by_cases c1 : cp < 0x800
  · have : utf8Form 2 cp = utf8 cp := by unfold utf8; rw [if_neg (by omega), if_pos (by omega)]
    exact ⟨2, (default_allowed_iff 2 cp).2 ⟨⟨hl, hu, hs⟩, this, by omega, by omega⟩, this⟩
  · by_cases c2 : cp < 0x10000
    · have : utf8Form 3 cp = utf8 cp := by unfold utf8; rw [if_neg (by omega), if_neg (by omega), if_pos (by omega)]
      exact ⟨3, (default_allowed_iff 3 cp).2 ⟨⟨hl, hu, hs⟩, this, by omega, by omega⟩, this⟩
    · have : utf8Form 4 cp = utf8 cp := by
        unfold utf8; rw [if_neg (by omega), if_neg (by omega), if_neg (by omega), if_pos (by omega)]
      exact ⟨4, (default_allowed_iff 4 cp).2 ⟨⟨hl, hu, hs⟩, this, by omega, by omega⟩, this⟩

/-- The default decoder on a well-formed sequence. -/
theorem C13_accepts (cp : Nat) (h : Multibyte cp) (rest : List Nat) :
    (machine {}).feed .zero (utf8 cp ++ rest) = .ret (utf8 cp).length .zero [uniDatum cp] .nextphase := by
  obtain ⟨n, ha, he⟩ := default_allowed cp h
  rw [← he, form_len ha.1]
  exact feed_allowed {} rfl ha rest

/-- Every byte sequence, with default options: it begins with the standard encoding of a non-surrogate code point
from U+0080 to U+1FFFFF and gives that character; or it is a proper beginning of the standard encoding of a code
point of that range (surrogates included: they are seen at the last byte) and waits; or it is rejected with no
output at the first byte with which it stops being such a beginning or completes a surrogate. -/
theorem C13_classification (bs : List Nat) (hb : ∀ b ∈ bs, b < 256) :
    (∃ cp rest, Multibyte cp ∧ bs = utf8 cp ++ rest ∧
      (machine {}).feed .zero bs = .ret (utf8 cp).length .zero [uniDatum cp] .nextphase) ∨
    (∃ cp tl, 0x80 ≤ cp ∧ cp < 0x200000 ∧ tl ≠ [] ∧ utf8 cp = bs ++ tl ∧
      ∃ t, (machine {}).feed .zero bs = .more t []) ∨
    (∃ k, (machine {}).feed .zero bs = .ret k .zero [] .deadend ∧
      (∃ cp, 0x80 ≤ cp ∧ cp < 0x200000 ∧ bs.take (k - 1) <+: utf8 cp ∧ k - 1 < (utf8 cp).length) ∧
      ∀ cp, Multibyte cp → ¬ bs.take k <+: utf8 cp ∧ ¬ utf8 cp <+: bs) := by
  have std : ∀ n cp, FormOk {} n cp → 0x80 ≤ cp ∧ cp < 0x200000 ∧ utf8Form n cp = utf8 cp ∧ (utf8 cp).length = n := by
    intro n cp hf
    have hlen := form_len hf
    obtain ⟨h2, h4, hcap, hmin⟩ := hf
    simp only [Bool.false_eq_true, if_false, false_or] at h4 hmin
    have hn : n = 2 ∨ n = 3 ∨ n = 4 := by omega
    have : utf8Form n cp = utf8 cp := by
      rcases hn with rfl | rfl | rfl <;> simp only [utf8Cap, utf8Min, if_true, Nat.reduceSub, Nat.reducePow,
        Nat.reduceMul, Nat.reduceEqDiff, if_false] at hcap hmin <;> unfold utf8
      · rw [if_neg (by omega), if_pos (by omega)]
      · rw [if_neg (by omega), if_neg (by omega), if_pos (by omega)]
      · rw [if_neg (by omega), if_neg (by omega), if_neg (by omega), if_pos (by omega)]
    rw [← this]
    refine ⟨?_, ?_, rfl, hlen⟩ <;>
    rcases hn with rfl | rfl | rfl <;> simp only [utf8Cap, utf8Min, if_true, Nat.reduceSub, Nat.reducePow,
        Nat.reduceMul, Nat.reduceEqDiff, if_false] at hcap hmin <;> omega
  rcases C15_classification {} rfl bs hb with ⟨n, v, rest, ha, he, hf⟩ | ⟨n, v, tl, hf, ht, he, hm⟩ | ⟨k, hk, ⟨n, v, hf, hp, hlt⟩, hno⟩
  · obtain ⟨h1, h2, h3, h4⟩ := std n v ha.1
    refine Or.inl ⟨v, rest, ((default_allowed_iff n v).1 ha).1, by rw [he, h3], by rw [hf, h4]⟩
  · obtain ⟨h1, h2, h3, h4⟩ := std n v hf
    exact Or.inr (Or.inl ⟨v, tl, h1, h2, ht, by rw [← h3]; exact he, hm⟩)
  · obtain ⟨h1, h2, h3, h4⟩ := std n v hf
    refine Or.inr (Or.inr ⟨k, hk, ⟨v, h1, h2, by rw [← h3]; exact hp, by omega⟩, ?_⟩)
    intro cp hcp
    obtain ⟨n', ha, he⟩ := default_allowed cp hcp
    rw [← he]
    exact hno n' cp ha

/-- A surrogate is rejected, at its third byte. -/
theorem C13_surrogate (cp : Nat) (h : Surrogate cp) (rest : List Nat) :
    (machine {}).feed .zero (utf8Form 3 cp ++ rest) = .ret 3 .zero [] .deadend := by
  unfold Surrogate at h
  refine feed_refused {} rfl ⟨by omega, by simp, ?_, Or.inr ?_⟩ ?_ rest
  · simp only [utf8Cap, Nat.reduceSub, Nat.reducePow, Nat.reduceMul]; omega
  · simp only [utf8Cap, utf8Min, Nat.reduceEqDiff, if_false, Nat.reduceSub, Nat.reducePow, Nat.reduceMul]; omega
  · rintro ⟨_, hs, _⟩
    rcases hs with hs | hs
    · simp at hs
    · exact hs h

/-- ASCII bytes, continuation bytes, C0, C1 and F8..FF are rejected at once. -/
theorem C13_first_byte (b : Nat) (hb : b < 256) (h : b < 0xC2 ∨ 0xF8 ≤ b) (rest : List Nat) :
    (machine {}).feed .zero (b :: rest) = .ret 1 .zero [] .deadend := by
  refine ufeed_ret _ ?_
  show step {} ⟨0, .zero, .zero⟩ b = _
  rw [step_first {} .zero hb]
  by_cases c1 : b < 0xc0
  · rw [if_pos c1]; rfl
  · rw [if_neg c1]
    by_cases c2 : b < 0xe0
    · rw [if_pos c2, if_pos]
      · rfl
      · refine ⟨by simp, ?_⟩; omega
    · rw [if_neg c2, if_neg (by omega), if_neg (by omega)]
      (repeat' split) <;> first | rfl | simp_all

/-! ## C14 -/

section enc
variable {a b : Nat} (ha : a < 256) (hb : b < 256)
include ha
theorem enc_hi2 : 0xc0 ||| ((a >>> 6) &&& 0x03) = 192 + a / 64 := by revert a; decide +kernel
theorem enc_lo : 0x80 ||| (a &&& 0x3f) = 128 + a % 64 := by revert a; decide +kernel
theorem enc_and80 : (a &&& 0x80 == 0) = decide (a < 0x80) := by revert a; decide +kernel
theorem enc_andf8 : (a &&& 0xf8 == 0) = decide (a < 8) := by revert a; decide +kernel
theorem enc_ande0 : (a &&& 0xe0 == 0) = decide (a < 32) := by revert a; decide +kernel
theorem enc_hi3 : 0xe0 ||| ((a >>> 4) &&& 0x0f) = 224 + a / 16 := by revert a; decide +kernel
theorem enc_hi4 : 0xf0 ||| ((a >>> 2) &&& 0x07) = 240 + a / 4 % 8 := by revert a; decide +kernel
theorem enc_s6 : (a >>> 6) &&& 0x03 = a / 64 := by revert a; decide +kernel
theorem enc_s4 : (a >>> 4) &&& 0x0f = a / 16 := by revert a; decide +kernel
theorem enc_l2c : 0xc0 ||| ((a <<< 2) &&& 0x1c) = (48 + a % 8) * 2 ^ 2 := by revert a; decide +kernel
theorem enc_l2e : 0x80 ||| ((a <<< 2) &&& 0x3c) = (32 + a % 16) * 2 ^ 2 := by revert a; decide +kernel
theorem enc_l4 : 0x80 ||| ((a <<< 4) &&& 0x30) = (8 + a % 4) * 2 ^ 4 := by revert a; decide +kernel
include hb
theorem enc_2 : 0xc0 ||| ((a <<< 2) &&& 0x1c) ||| ((b >>> 6) &&& 0x03) = (48 + a % 8) * 4 + b / 64 := by
  rw [enc_l2c ha, enc_s6 hb, or_add (by omega)]
theorem enc_3 : 0x80 ||| ((a <<< 2) &&& 0x3c) ||| ((b >>> 6) &&& 0x03) = (32 + a % 16) * 4 + b / 64 := by
  rw [enc_l2e ha, enc_s6 hb, or_add (by omega)]
theorem enc_4 : 0x80 ||| ((a <<< 4) &&& 0x30) ||| ((b >>> 4) &&& 0x0f) = (8 + a % 4) * 16 + b / 16 := by
  rw [enc_l4 ha, enc_s4 hb, or_add (by omega)]
end enc

/-- The encoder gives the standard form. -/
theorem C14_encode (cp : Nat) (h1 : 0x80 ≤ cp) (h2 : cp < 0x200000) : encode (uniDatum cp) = some [utf8 cp] := by
  have e1 : ∀ n, n < 256 → beBytes n = [n] := by intro n hn; rw [beBytes, if_pos hn]
  have e2 : ∀ n, 256 ≤ n → beBytes n = beBytes (n / 256) ++ [n % 256] := by
    intro n hn; rw [beBytes, if_neg (by omega)]
  unfold utf8
  rw [if_neg (by omega)]
  unfold encode uniDatum
  simp only [List.drop_succ_cons, List.drop_zero]
  by_cases a1 : cp < 256
  · rw [e1 cp a1]
    simp only []
    rw [enc_and80 a1, if_neg (by simp; omega), if_pos (by omega), enc_hi2 a1, enc_lo a1]
    simp only [utf8Form, utf8Tail, Nat.reduceSub, Nat.reducePow, Nat.pow_one, Nat.pow_zero, Nat.div_one]
  · by_cases a2 : cp < 65536
    · rw [e2 cp (by omega), e1 (cp / 256) (by omega)]
      simp only [List.cons_append, List.nil_append]
      rw [enc_andf8 (by omega)]
      by_cases a3 : cp < 0x800
      · rw [if_pos (by simp; omega), if_pos a3, enc_2 (by omega) (by omega), enc_lo (by omega)]
        simp only [utf8Form, utf8Tail, Nat.reduceSub, Nat.reducePow, Nat.pow_one, Nat.pow_zero, Nat.div_one]
        simp only [Option.some.injEq, List.cons.injEq, and_true]
        omega
      · rw [if_neg (by simp; omega), if_neg a3, if_pos (by omega), enc_hi3 (by omega), enc_3 (by omega) (by omega),
          enc_lo (by omega)]
        simp only [utf8Form, utf8Tail, Nat.reduceSub, Nat.reducePow, Nat.pow_one, Nat.pow_zero, Nat.div_one]
        simp only [Option.some.injEq, List.cons.injEq, and_true]
        omega
    · rw [e2 cp (by omega), e2 (cp / 256) (by omega), e1 (cp / 256 / 256) (by omega)]
      simp only [List.cons_append, List.nil_append]
      rw [enc_ande0 (by omega), if_pos (by simp; omega), if_neg (by omega), if_neg (by omega), if_pos h2,
        enc_hi4 (by omega), enc_4 (by omega) (by omega), enc_3 (by omega) (by omega), enc_lo (by omega)]
      simp only [utf8Form, utf8Tail, Nat.reduceSub, Nat.reducePow, Nat.pow_one, Nat.pow_zero, Nat.div_one]
      simp only [Option.some.injEq, List.cons.injEq, and_true]
      omega

/-- Outside that range the encoder refuses: ASCII is left to another codec, and numbers from 0x200000 up have no
form. -/
theorem C14_refuses (cp : Nat) (h : cp < 0x80 ∨ 0x200000 ≤ cp) : encode (uniDatum cp) = none := by
  have e1 : ∀ n, n < 256 → beBytes n = [n] := by intro n hn; rw [beBytes, if_pos hn]
  have e2 : ∀ n, 256 ≤ n → beBytes n = beBytes (n / 256) ++ [n % 256] := by
    intro n hn; rw [beBytes, if_neg (by omega)]
  have el : ∀ n, 1 ≤ (beBytes n).length := by
    intro n
    by_cases hn : n < 256
    · rw [e1 n hn]; simp
    · rw [e2 n (by omega)]; simp
  unfold encode uniDatum
  simp only [List.drop_succ_cons, List.drop_zero]
  rcases h with h | h
  · rw [e1 cp (by omega)]
    simp only []
    rw [enc_and80 (by omega), if_pos (by simpa using h)]
  · by_cases a1 : cp < 0x1000000
    · rw [e2 cp (by omega), e2 (cp / 256) (by omega), e1 (cp / 256 / 256) (by omega)]
      simp only [List.cons_append, List.nil_append]
      rw [enc_ande0 (by omega), if_neg (by simp; omega)]
    · rw [e2 cp (by omega), e2 (cp / 256) (by omega), e2 (cp / 256 / 256) (by omega)]
      have := el (cp / 256 / 256 / 256)
      split <;> first
        | rfl
        | (rename_i hh
           have hl := congrArg List.length hh
           simp only [List.length_append, List.length_cons, List.length_nil] at hl
           omega)

/-- Encoding a character and decoding the bytes, whatever follows them, gives the character back. -/
theorem C14_round_trip (cp : Nat) (h : Multibyte cp) (rest : List Nat) :
    ∃ bytes, encode (uniDatum cp) = some [bytes] ∧ (∀ b ∈ bytes, b < 256) ∧
      (machine {}).feed .zero (bytes ++ rest) = .ret bytes.length .zero [uniDatum cp] .nextphase := by
  refine ⟨utf8 cp, C14_encode cp h.1 h.2.1, ?_, C13_accepts cp h rest⟩
  obtain ⟨h1, h2, _⟩ := h
  unfold utf8
  rw [if_neg (by omega)]
  intro b hb
  (repeat' split at hb) <;>
    simp only [utf8Form, utf8Tail, Nat.reduceSub, Nat.reducePow, Nat.pow_one, Nat.pow_zero, Nat.div_one, List.mem_cons,
      List.not_mem_nil, or_false] at hb <;> omega

/-- Decoding an accepted sequence and encoding the character gives the bytes back. -/
theorem C14_round_trip_bytes (bs : List Nat) (hb : ∀ b ∈ bs, b < 256) (k : Nat) (t : Priv) (out : List (List Nat))
    (h : (machine {}).feed .zero bs = .ret k t out .nextphase) :
    ∃ d, out = [d] ∧ encode d = some [bs.take k] := by
  rcases C13_classification bs hb with ⟨cp, rest, hm, he, hf⟩ | ⟨cp, tl, _, _, _, _, t', hf⟩ | ⟨k', hf, _⟩
  · rw [hf] at h
    simp only [Fed.ret.injEq] at h
    obtain ⟨rfl, _, rfl, _⟩ := h
    refine ⟨uniDatum cp, rfl, ?_⟩
    rw [C14_encode cp hm.1 hm.2.1, he, List.take_left']
    rfl
  · rw [hf] at h; simp at h
  · rw [hf] at h; simp at h

-- The euro sign.
example : encode (uniDatum 0x20AC) = some [[0xE2, 0x82, 0xAC]] ∧
    (machine {}).feed .zero [0xE2, 0x82, 0xAC, 0x41] = .ret 3 .zero [[1, 0x20, 0xAC]] .nextphase := by
  constructor
  · exact C14_encode 0x20AC (by decide) (by decide)
  · decide +kernel

/-! ## C16 -/

/-- The lead surrogate of a pair is kept back. -/
theorem C16_lead (o : Opts) (hc : o.cesu = true) (lead : Nat) (h : 0xD800 ≤ lead ∧ lead ≤ 0xDBFF) (rest : List Nat) :
    (machine o).feed .zero (utf8Form 3 lead ++ rest) =
      .ret 3 ⟨0, .of lead, .zero⟩ [] (if o.loose then .submatch else .cont) := by
  have hr : Readable o 3 lead := ⟨by omega, by omega, Or.inl (by omega), by simp [utf8Cap]; omega,
    Or.inl (by simp [utf8Min, utf8Cap]; omega)⟩
  refine feed_form o .zero hr ?_ rest
  unfold commit
  simp only [Ucs.val_of (show lead < 2 ^ 32 by omega), hc, if_pos h, if_true]
  simp

theorem or_low {a b i : Nat} (h : b < 2 ^ i) : 2 ^ i ||| b = 2 ^ i + b := by
  have := or_add (a := 1) h
  simpa using this

theorem cesu_value {l t : Nat} (hl : l < 1024) (ht : t < 1024) :
    0x10000 ||| ((l <<< 10) &&& 0xffc00) ||| (t &&& 0x3ff) = (if l / 64 % 2 = 0 then 0x10000 else 0) + l * 1024 + t := by
  have h1 : (l <<< 10) &&& 0xffc00 = l * 1024 := by revert l; decide +kernel
  have h2 : t &&& 0x3ff = t := by revert t; decide +kernel
  have h3 : 0x10000 ||| l * 1024 = ((if l / 64 % 2 = 0 then 64 else 0) + l) * 2 ^ 10 := by revert l; decide +kernel
  rw [h1, h2, h3, or_add (by omega)]
  split <;> omega

/-- What the pair decodes to.  It is the supplementary character
`0x10000 + (lead - 0xD800) * 0x400 + (trail - 0xDC00)` when bit 16 of the offset is clear
(U+10000..U+1FFFF, U+30000..U+3FFFF, …); for all others (planes 2, 4, …, 16) 0x10000 is or-ed in instead
of added and the result is the character of the plane below. -/
theorem C16_pair (o : Opts) (hc : o.cesu = true) (lead trail : Nat) (hl : 0xD800 ≤ lead ∧ lead ≤ 0xDBFF)
    (ht : 0xDC00 ≤ trail ∧ trail ≤ 0xDFFF) (rest : List Nat) :
    (machine o).feed ⟨0, .of lead, .zero⟩ (utf8Form 3 trail ++ rest) =
      .ret 3 .zero [uniDatum ((if (lead - 0xD800) / 64 % 2 = 0 then 0x10000 else 0) +
        (lead - 0xD800) * 0x400 + (trail - 0xDC00))] .nextphase := by
  have hr : Readable o 3 trail := ⟨by omega, by omega, Or.inl (by omega), by simp [utf8Cap]; omega,
    Or.inl (by simp [utf8Min, utf8Cap]; omega)⟩
  refine feed_form o _ hr ?_ rest
  unfold commit
  have hv0 : Ucs.zero.val = 0 := rfl
  have hz : Ucs.of lead ≠ .zero := by
    intro hh
    have := congrArg Ucs.val hh
    rw [Ucs.val_of (by omega), hv0] at this
    omega
  have key := cesu_value (l := lead - 0xD800) (t := trail - 0xDC00) (by omega) (by omega)
  simp only [Ucs.val_of (show trail < 2 ^ 32 by omega), Ucs.val_of (show lead < 2 ^ 32 by omega), hc, if_true]
  rw [if_neg (by omega), if_pos ht, if_pos hz, key]
  have hb : (if (lead - 55296) / 64 % 2 = 0 then 65536 else 0) + (lead - 55296) * 1024 + (trail - 56320) < 2 ^ 32 := by
    split <;> omega
  have hz2 : Ucs.of ((if (lead - 55296) / 64 % 2 = 0 then 65536 else 0) + (lead - 55296) * 1024 + (trail - 56320)) ≠ .zero := by
    intro hh
    have := congrArg Ucs.val hh
    rw [Ucs.val_of hb, hv0] at this
    split at this <;> omega
  unfold pass
  rw [if_neg (by rintro ⟨h, _⟩; exact hz2 h), datum_of hb]
  rfl

/-- The claim holds for the pairs whose offset has bit 16 clear. -/
theorem C16_pair_partial (o : Opts) (hc : o.cesu = true) (lead trail : Nat) (hl : 0xD800 ≤ lead ∧ lead ≤ 0xDBFF)
    (ht : 0xDC00 ≤ trail ∧ trail ≤ 0xDFFF) (hbit : (lead - 0xD800) / 64 % 2 = 0) (rest : List Nat) :
    (machine o).feed ⟨0, .of lead, .zero⟩ (utf8Form 3 trail ++ rest) =
      .ret 3 .zero [uniDatum (0x10000 + (lead - 0xD800) * 0x400 + (trail - 0xDC00))] .nextphase := by
  rw [C16_pair o hc lead trail hl ht rest, if_pos hbit]

/-- The claim fails for every pair whose offset has bit 16 set. -/
theorem C16_violated (o : Opts) (hc : o.cesu = true) (lead trail : Nat) (hl : 0xD800 ≤ lead ∧ lead ≤ 0xDBFF)
    (ht : 0xDC00 ≤ trail ∧ trail ≤ 0xDFFF) (hbit : (lead - 0xD800) / 64 % 2 = 1) (rest : List Nat) :
    ∃ cp, (machine o).feed ⟨0, .of lead, .zero⟩ (utf8Form 3 trail ++ rest) = .ret 3 .zero [uniDatum cp] .nextphase ∧
      cp ≠ 0x10000 + (lead - 0xD800) * 0x400 + (trail - 0xDC00) := by
  refine ⟨_, C16_pair o hc lead trail hl ht rest, ?_⟩
  rw [if_neg (by omega)]
  omega

-- U+20000 is D840 DC00; it decodes to U+10000.
example : (machine { cesu := true }).feed ⟨0, .of 0xD840, .zero⟩ (utf8Form 3 0xDC00) =
    .ret 3 .zero [[1, 1, 0, 0]] .nextphase := by decide +kernel

/-- A lead surrogate still pending when the input is flushed is given out as a character exactly when the decoder was
asked to be loose, and is then no longer pending; the strict decoder gives out nothing. -/
theorem C16_flush (o : Opts) (lead : Nat) (h : 0xD800 ≤ lead ∧ lead ≤ 0xDBFF) :
    flush o ⟨0, .of lead, .zero⟩ =
      if o.loose then (.zero, [uniDatum lead]) else (⟨0, .of lead, .zero⟩, []) := by
  have hz : Ucs.of lead ≠ .zero := by
    intro he
    have := congrArg Ucs.val he
    rw [Ucs.val_of (by omega)] at this
    have h0 : Ucs.zero.val = 0 := by decide
    omega
  unfold flush
  cases hl : o.loose with
  | true => rw [if_pos ⟨hz, rfl⟩, datum_of (by omega)]; rfl
  | false => rw [if_neg (by simp)]; rfl

/-- Nothing pending, nothing given out. -/
theorem C16_flush_none (o : Opts) (t : Priv) (h : t.lead = .zero) : flush o t = (t, []) := by
  unfold flush; rw [if_neg (by simp [h])]

/-! ## C17 -/

/-- The conversion `_UTF-8:_UTF-8`. -/
def utf8Conv (k : Nat) : Static Priv :=
  if k = 1 then ⟨.from_, fun _ => codec {}, 0⟩ else ⟨.to_, fun _ => toCodec, 0⟩

/-- Its instance. -/
def utf8Ins : Ins Priv := { ph := fun _ => { priv := fun _ => .zero }, phasen := 2 }

/-- C17 is false: the truncated input E4 B8, flushed, counts one error — and outputs the character
U+4E38 = E4 B8 B8, because the error path of the engine re-reads the byte B8 while the decoder still holds
the state it reached on E4 B8 (/repo/src/libbsdconv.c:664-676 does not call `cbinit`). -/
theorem C17_truncated_violated :
    ∃ (d : Delivery) (i2 : Ins Priv),
      Call utf8Conv (utf8Ins.init utf8Conv (fun _ _ _ => .zero)) ⟨some [0xE4, 0xB8], true, .file⟩ d i2 ∧
      d.bytes = [0xE4, 0xB8, 0xB8] ∧ i2.ierr = 1 ∧
      (∃ cp tl, Multibyte cp ∧ tl ≠ [] ∧ utf8 cp = [0xE4, 0xB8] ++ tl) := by
  refine ⟨_, _, call_eval 40 (by decide +kernel), by decide +kernel, by decide +kernel, 0x4E2D, [0xAD], ?_, by simp,
    by decide⟩
  unfold Multibyte; decide

/-- The decoder also keeps the state across calls: after a truncated E4 has been flushed and reported, a later call
that begins with B8 AD gives U+4E2D instead of two errors. -/
theorem C17_residue_violated :
    ∃ (d1 d2 : Delivery) (i2 : Ins Priv),
      Session utf8Conv (utf8Ins.init utf8Conv (fun _ _ _ => .zero))
        [⟨some [0xE4], true, .file⟩, ⟨some [0xB8, 0xAD], true, .file⟩] [d1, d2] i2 ∧
      d1.bytes = [] ∧ d2.bytes = [0xE4, 0xB8, 0xAD] ∧ i2.ierr = 1 := by
  refine ⟨_, _, _, .cons (call_eval 40 (by decide +kernel)) (.cons (call_eval 40 (by decide +kernel)) (.nil _)),
    by decide +kernel, by decide +kernel, by decide +kernel⟩

end Verif.Props
