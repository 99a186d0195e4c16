import Verif.Props.Escape
/-
C22, C23 (what the ESCAPE encoder leaves alone) and C64 (numeric HTML entities round-trip).
-/
namespace Verif.Props
open Verif.Spec Verif.Escape Verif.Engine

/-- C22/C23 (part): with `FOR=UNICODE` the encoder takes only Unicode data, with `FOR=BYTE` only single raw bytes;
everything else is refused, so the next codec of the phase (or the error report) gets it. -/
theorem C22_takes (o : Opts) (d : Datum) (out : List Datum) (h : encode o d = some out) :
    (o.filter = .unicode ∧ ∃ b bs, d = 1 :: b :: bs) ∨ (o.filter = .byte ∧ ∃ b, d = [3, b]) := by
  unfold encode at h
  split at h
  · rename_i hc
    refine .inl ⟨hc.1, ?_⟩
    match d, hc with
    | a :: b :: bs, hc => exact ⟨b, bs, by have := hc.2.2; simp at this; rw [this]⟩
    | [_], hc => simp at hc
  · split at h
    · rename_i hc
      refine .inr ⟨hc.1, ?_⟩
      match d, hc with
      | [a, b], hc => exact ⟨b, by have := hc.2.2; simp at this; rw [this]⟩
      | [_], hc => simp at hc
      | _ :: _ :: _ :: _, hc => simp at hc
    · cases h

example : encode { filter := .byte } [3, 0x41] = some [ascii "%u41"] ∧ encode { filter := .byte } [4, 0x41] = none ∧
    encode {} [3, 0x41] = none := by decide +kernel

/-- `FOR=BYTE` with any mode takes every raw byte; `FOR=UNICODE` with a hexadecimal or decimal mode every
Unicode datum. -/
theorem C22_total (o : Opts) (d : Datum)
    (h : (o.filter = .unicode ∧ o.mode ≠ .oct ∧ ∃ b bs, d = 1 :: b :: bs) ∨ (o.filter = .byte ∧ ∃ b, d = [3, b])) :
    ∃ e, encode o d = some [o.pre ++ e ++ o.suf] := by
  obtain ⟨pre, suf, filter, mode⟩ := o
  rcases h with ⟨h1, h2, b, bs, rfl⟩ | ⟨h1, b, rfl⟩
  · simp only at h1 h2
    subst h1
    cases mode with
    | hex => exact ⟨(b :: bs).flatMap hex2, by simp [encode]⟩
    | dec => exact ⟨_, by simp [encode]; rfl⟩
    | oct => exact absurd rfl h2
  · simp only at h1
    subst h1
    cases mode with
    | hex => exact ⟨_, by simp [encode]; rfl⟩
    | dec => exact ⟨_, by simp [encode]; rfl⟩
    | oct => exact ⟨[b / 8 / 8 + 48, b / 8 % 8 + 48, b % 8 + 48], by simp [encode]⟩

theorem decByte_digit {n : Nat} (h : n < 10) : DecByte (48 + n) n := by
  rw [← decb_iff]; unfold decb; rw [if_pos (by omega)]; congr 1; omega

/-- The decimal digits of a number are a numeral of that value. -/
theorem decDigits_numeral (n : Nat) : Numeral DecByte 10 (decDigits n) n := by
  induction n using Nat.strongRecOn with
  | ind n ih =>
    unfold decDigits
    split
    · rename_i h
      exact .one (decByte_digit h)
    · rename_i h
      have := Numeral.snoc (ih (n / 10) (by omega)) (decByte_digit (n := n % 10) (by omega))
      rwa [show n / 10 * 10 + n % 10 = n by omega] at this

/-- Two hexadecimal digits per byte. -/
theorem hexBytes_numeral {bs : List Nat} (hne : bs ≠ []) (hb : ∀ b ∈ bs, b < 256) :
    Numeral HexByte 16 (bs.flatMap hex2) (bs.foldl (fun u b => u * 256 + b) 0) := by
  have one : ∀ b, b < 256 → Numeral HexByte 16 (hex2 b) b := by
    intro b hb
    have := Numeral.snoc (.one (hexDigit_ok (n := b / 16 % 16) (by omega))) (b := 16) (hexDigit_ok (n := b % 16) (by omega))
    rwa [show b / 16 % 16 * 16 + b % 16 = b by omega] at this
  have more : ∀ (cs : List Nat) (v b : Nat), b < 256 → Numeral HexByte 16 cs v →
      Numeral HexByte 16 (cs ++ hex2 b) (v * 256 + b) := by
    intro cs v b hb h
    have := (h.snoc (hexDigit_ok (n := b / 16 % 16) (by omega))).snoc (hexDigit_ok (n := b % 16) (by omega))
    rw [List.append_assoc] at this
    rwa [show (v * 16 + b / 16 % 16) * 16 + b % 16 = v * 256 + b by omega] at this
  have go : ∀ (bs : List Nat) (cs : List Nat) (v : Nat), (∀ b ∈ bs, b < 256) → Numeral HexByte 16 cs v →
      Numeral HexByte 16 (cs ++ bs.flatMap hex2) (bs.foldl (fun u b => u * 256 + b) v) := by
    intro bs
    induction bs with
    | nil => intro cs v _ h; simpa using h
    | cons b bs ih =>
      intro cs v hb h
      have := ih _ _ (fun x hx => hb x (by simp [hx])) (more cs v b (hb b (by simp)) h)
      rw [List.append_assoc] at this
      simpa using this
  match bs, hne with
  | b :: bs, _ =>
    have := go bs (hex2 b) b (fun x hx => hb x (by simp [hx])) (one b (hb b (by simp)))
    simpa using this

theorem beBytes_value (n : Nat) : (beBytes n).foldl (fun u b => u * 256 + b) 0 = n := by
  induction n using Nat.strongRecOn with
  | ind n ih =>
    unfold beBytes
    split
    · simp
    · rw [List.foldl_append, ih (n / 256) (by omega)]
      simp
      omega

theorem beBytes_ne (n : Nat) : beBytes n ≠ [] := by
  unfold beBytes; split <;> simp

theorem beBytes_lt (n : Nat) : ∀ b ∈ beBytes n, b < 256 := by
  induction n using Nat.strongRecOn with
  | ind n ih =>
    unfold beBytes
    split
    · rename_i h; simpa using h
    · rename_i h
      intro b hb
      rcases List.mem_append.1 hb with hb | hb
      · exact ih _ (by omega) b hb
      · simp at hb; omega

theorem foldl_mono (bs : List Nat) (u : Nat) : u ≤ bs.foldl (fun u b => u * 256 + b) u := by
  induction bs generalizing u with
  | nil => simp
  | cons b bs ih => exact Nat.le_trans (by omega) (ih (u * 256 + b))

theorem num32_value (bs : List Nat) (h : bs.foldl (fun u b => u * 256 + b) 0 < 2 ^ 32) :
    num32 bs = bs.foldl (fun u b => u * 256 + b) 0 := by
  unfold num32
  generalize 0 = u at h ⊢
  induction bs generalizing u with
  | nil => rfl
  | cons b bs ih =>
    simp only [List.foldl_cons] at h ⊢
    rw [Nat.mod_eq_of_lt (Nat.lt_of_le_of_lt (foldl_mono bs _) h)]
    exact ih _ h

/-- The options of the aliases `ASCII-DEC-NUMERIC-HTML-ENTITY` and `ASCII-HEX-NUMERIC-HTML-ENTITY`,
/repo/modules/to/alias. -/
def entityStyle (hex : Bool) : Opts :=
  if hex then { pre := ascii "&#x", suf := ascii ";", mode := .hex } else { pre := ascii "&#", suf := ascii ";", mode := .dec }

/-- C64: writing a code point as a decimal or hexadecimal numeric entity and reading the entity back gives the code
point, whatever follows; the entity is `&#`, a numeral of the code point, `;`. -/
theorem C64_roundtrip (hex : Bool) (cp : Nat) (h0 : cp ≠ 0) (h : cp < 2 ^ 32) (t : EPriv) (ht : t.status = 0)
    (r : List Nat) : ∃ body t', encode (entityStyle hex) (uniDatum cp) = some [ascii "&#" ++ body ++ ascii ";"] ∧
      EntityBody body cp ∧ t'.status = 0 ∧
      emachine.feed t (body ++ ascii ";" ++ r) = .ret (body.length + 1) t' [uniDatum cp] .nextphase := by
  have hu : ∃ b bs, beBytes cp = b :: bs := by
    cases hb : beBytes cp with
    | nil => exact absurd hb (beBytes_ne cp)
    | cons b bs => exact ⟨b, bs, rfl⟩
  have key : ∃ body, encode (entityStyle hex) (uniDatum cp) = some [ascii "&#" ++ body ++ ascii ";"] ∧
      EntityBody body cp := by
    obtain ⟨b, bs, hb⟩ := hu
    have hv := beBytes_value cp
    cases hex with
    | true =>
      refine ⟨ascii "x" ++ (beBytes cp).flatMap hex2, ?_, .hex ?_⟩
      · unfold uniDatum entityStyle encode
        rw [hb]
        simp [ascii]
      · have := hexBytes_numeral (beBytes_ne cp) (beBytes_lt cp)
        rwa [hv] at this
    | false =>
      refine ⟨decDigits cp, ?_, .dec (decDigits_numeral cp)⟩
      have hn := num32_value (beBytes cp) (by rw [hv]; exact h)
      rw [hv] at hn
      rw [hb] at hn
      unfold uniDatum entityStyle encode
      rw [hb]
      simp [hn]
  obtain ⟨body, h1, h2⟩ := key
  obtain ⟨t', h3, h4⟩ := C24_decode_partial t ht h2 h0 h r
  exact ⟨body, t', h1, h2, h3, h4⟩

example : encode (entityStyle false) (uniDatum 0x1F600) = some [ascii "&#128512;"] := by decide +kernel
example : encode (entityStyle true) (uniDatum 0x1F600) = some [ascii "&#x01F600;"] := by decide +kernel

/-- No leading zeros in decimal. -/
theorem decDigits_head (n : Nat) (h : n ≠ 0) : (decDigits n).head? ≠ some 48 := by
  induction n using Nat.strongRecOn with
  | ind n ih =>
    unfold decDigits
    split
    · simp; omega
    · have := ih (n / 10) (by omega) (by omega)
      cases hd : decDigits (n / 10) with
      | nil =>
        unfold decDigits at hd
        split at hd <;> simp at hd
      | cons a l => rw [hd] at this; simpa using this

end Verif.Props
