import Verif.Model.Utf8
import Verif.Spec.Unicode
/-
Arithmetic form of the UTF-8 decoder's steps.
-/
namespace Verif.Utf8
open Verif.Engine Verif.Spec

theorem or_add {i a b : Nat} (h : b < 2 ^ i) : a * 2 ^ i ||| b = a * 2 ^ i + b := by
  rw [Nat.mul_comm, Nat.two_pow_add_eq_or_of_lt h]

theorem or8_eq (a x : Nat) : or8 a x = a % 256 ||| x % 256 := by
  unfold or8
  exact Nat.or_mod_two_pow (n := 8)

theorem or8_or8 (a x y : Nat) : or8 (or8 a x) y = or8 a (x ||| y) := by
  rw [or8_eq, or8_eq, or8_eq]
  have h1 : (a % 256 ||| x % 256) % 256 = a % 256 ||| x % 256 := by
    have := Nat.or_mod_two_pow (n := 8) (a := a % 256) (b := x % 256)
    simpa using this
  have h2 : (x ||| y) % 256 = x % 256 ||| y % 256 := Nat.or_mod_two_pow (n := 8)
  rw [h1, h2, Nat.or_assoc]

theorem or8_zero (x : Nat) (h : x < 256) : or8 0 x = x := by
  unfold or8; rw [Nat.zero_or]; omega

theorem or8_add {i a b : Nat} (h : b < 2 ^ i) (h2 : a * 2 ^ i + b < 256) : or8 (a * 2 ^ i) b = a * 2 ^ i + b := by
  unfold or8; rw [or_add h]; omega

section bytes
variable {d : Nat} (h : d < 256)
include h

theorem isCont_iff : isCont d = decide (0x80 ≤ d ∧ d < 0xc0) := by
  revert d; decide +kernel
theorem lead1 : (d &&& 0x80 == 0) = decide (d < 0x80) := by revert d; decide +kernel
theorem lead2 : (d &&& 0xe0 == 0xc0) = decide (0xc0 ≤ d ∧ d < 0xe0) := by revert d; decide +kernel
theorem lead3 : (d &&& 0xf0 == 0xe0) = decide (0xe0 ≤ d ∧ d < 0xf0) := by revert d; decide +kernel
theorem lead4 : (d &&& 0xf8 == 0xf0) = decide (0xf0 ≤ d ∧ d < 0xf8) := by revert d; decide +kernel
theorem lead5 : (d &&& 0xfc == 0xf8) = decide (0xf8 ≤ d ∧ d < 0xfc) := by revert d; decide +kernel
theorem lead6 : (d &&& 0xfe == 0xfc) = decide (0xfc ≤ d ∧ d < 0xfe) := by revert d; decide +kernel
theorem and3f : d &&& 0x3f = d % 64 := by revert d; decide +kernel
theorem and3c : d &&& 0x3c = d % 64 / 4 * 4 := by revert d; decide +kernel
theorem and03 : d &&& 0x03 = d % 4 := by revert d; decide +kernel
theorem shr2_07 : (d >>> 2) &&& 0x07 = d % 32 / 4 := by revert d; decide +kernel
theorem shr2_08 : (d >>> 2) &&& 0x08 = d % 64 / 32 * 8 := by revert d; decide +kernel
theorem shr2_0f : (d >>> 2) &&& 0x0f = d % 64 / 4 := by revert d; decide +kernel
theorem shr2_split : ((d >>> 2) &&& 0x08) ||| ((d >>> 2) &&& 0x07) = d % 64 / 4 := by revert d; decide +kernel
theorem shl6_80 : (d <<< 6) &&& 0x80 = d % 4 / 2 * 128 := by revert d; decide +kernel
theorem shl6_40 : (d <<< 6) &&& 0x40 = d % 2 * 64 := by revert d; decide +kernel
theorem shl6_c0 : (d <<< 6) &&& 0xc0 = d % 4 * 64 := by revert d; decide +kernel
theorem shl6_split : ((d <<< 6) &&& 0x80) ||| ((d <<< 6) &&& 0x40) = d % 4 * 64 := by revert d; decide +kernel
theorem shr4_03 : (d >>> 4) &&& 0x03 = d % 64 / 16 := by revert d; decide +kernel
theorem shl4_f0 : (d <<< 4) &&& 0xf0 = d % 16 * 16 := by revert d; decide +kernel
theorem shl2_1c : (d <<< 2) &&& 0x1c = d % 8 * 4 := by revert d; decide +kernel
theorem shl2_e0 : (d <<< 2) &&& 0xe0 = d % 64 / 8 * 32 := by revert d; decide +kernel
theorem shl2_fc : (d <<< 2) &&& 0xfc = d % 64 * 4 := by revert d; decide +kernel
theorem shl2_split : ((d <<< 2) &&& 0xe0) ||| ((d <<< 2) &&& 0x1c) = d % 64 * 4 := by revert d; decide +kernel
theorem and3_split : (d &&& 0x3c) ||| (d &&& 0x03) = d % 64 := by revert d; decide +kernel
end bytes

theorem Ucs.of_zero : Ucs.of 0 = .zero := rfl

theorem Ucs.val_of {v : Nat} (h : v < 2 ^ 32) : (Ucs.of v).val = v := by
  unfold Ucs.of Ucs.val
  simp only
  omega

theorem Ucs.of_eq_zero {v : Nat} (h : v < 2 ^ 32) : Ucs.of v = .zero ↔ v = 0 := by
  constructor
  · intro he
    have := congrArg Ucs.val he
    rw [Ucs.val_of h] at this
    exact this
  · rintro rfl; rfl

theorem datum_of {v : Nat} (h : v < 2 ^ 32) : datum (.of v) = uniDatum v := by
  unfold datum uniDatum Ucs.of
  simp only
  have e1 : ∀ n, n < 256 → beBytes n = [n] := by intro n hn; rw [beBytes, if_pos hn]
  have e2 : ∀ n, 256 ≤ n → beBytes n = beBytes (n / 256) ++ [n % 256] := by
    intro n hn; rw [beBytes, if_neg (by omega)]
  by_cases h1 : v < 256
  · rw [if_neg (by omega), if_neg (by omega), if_neg (by omega), e1 v h1]
    simp; omega
  · by_cases h2 : v < 0x10000
    · rw [if_neg (by omega), if_neg (by omega), if_pos (by omega), e2 v (by omega), e1 _ (by omega)]
      simp; omega
    · by_cases h3 : v < 0x1000000
      · rw [if_neg (by omega), if_pos (by omega), e2 v (by omega), e2 _ (by omega), e1 _ (by omega)]
        simp; omega
      · rw [if_pos (by omega), e2 v (by omega), e2 _ (by omega), e2 _ (by omega), e1 _ (by omega)]
        simp; omega

/-! The steps in arithmetic form: `P` is what has been read so far, `L` the pending lead surrogate. -/

theorem step_first (o : Opts) (L : Ucs) {d : Nat} (h : d < 256) : step o ⟨0, L, .zero⟩ d =
    if d < 0xc0 then dead []
    else if d < 0xe0 then
      if !o.overlong ∧ d % 32 < 2 then dead [] else (⟨21, L, .of (d % 32 * 64)⟩, [], none)
    else if d < 0xf0 then (⟨31, L, .of (d % 16 * 4096)⟩, [], none)
    else if d < 0xf8 then (⟨41, L, .of (d % 8 * 262144)⟩, [], none)
    else if d < 0xfc then
      if !o.super then dead [] else (⟨51, L, .of (d % 4 * 16777216)⟩, [], none)
    else if d < 0xfe then
      if !o.super then dead [] else (⟨61, L, .of (d % 2 * 1073741824)⟩, [], none)
    else dead [] := by
  unfold step
  simp only [lead1 h, lead2 h, lead3 h, lead4 h, lead5 h, lead6 h, decide_eq_true_eq, Ucs.zero, or8_or8]
  by_cases c1 : d < 0x80
  · rw [if_pos c1, if_pos (by omega)]
  · rw [if_neg c1]
    by_cases c2 : d < 0xc0
    · rw [if_pos c2, if_neg (by omega), if_neg (by omega), if_neg (by omega), if_neg (by omega), if_neg (by omega)]
    · rw [if_neg c2]
      by_cases c3 : d < 0xe0
      · rw [if_pos (by omega), if_pos c3]
        unfold short
        have e1 : or8 0 ((d >>> 2) &&& 0x07) = d % 32 / 4 := by
          rw [shr2_07 h, or8_zero _ (by omega)]
        have e2 : or8 0 ((d <<< 6) &&& 0x80) = d % 4 / 2 * 128 := by
          rw [shl6_80 h, or8_zero _ (by omega)]
        have e3 : or8 0 (((d <<< 6) &&& 0x80) ||| ((d <<< 6) &&& 0x40)) = d % 4 * 64 := by
          rw [shl6_split h, or8_zero _ (by omega)]
        have e4 : (Ucs.mk 0 0 (d % 32 / 4) (d % 4 / 2 * 128) = Ucs.zero) ↔ d % 32 < 2 := by
          simp only [Ucs.zero, Ucs.mk.injEq, true_and]; omega
        have e5 : Ucs.of (d % 32 * 64) = ⟨0, 0, d % 32 / 4, d % 4 * 64⟩ := by
          simp only [Ucs.of, Ucs.mk.injEq]; omega
        rw [e1, e2, e3, e5]
        simp only [e4]
      · rw [if_neg (by omega), if_neg c3]
        by_cases c4 : d < 0xf0
        · rw [if_pos (by omega), if_pos c4, shl4_f0 h, or8_zero _ (by omega)]
          have e5 : Ucs.of (d % 16 * 4096) = ⟨0, 0, d % 16 * 16, 0⟩ := by
            simp only [Ucs.of, Ucs.mk.injEq]; omega
          rw [e5]
        · rw [if_neg (by omega), if_neg c4]
          by_cases c5 : d < 0xf8
          · rw [if_pos (by omega), if_pos c5, shl2_1c h, or8_zero _ (by omega)]
            have e5 : Ucs.of (d % 8 * 262144) = ⟨0, d % 8 * 4, 0, 0⟩ := by
              simp only [Ucs.of, Ucs.mk.injEq]; omega
            rw [e5]
          · rw [if_neg (by omega), if_neg c5]
            by_cases c6 : d < 0xfc
            · rw [if_pos (by omega), if_pos c6, and03 h, or8_zero _ (by omega)]
              have e5 : Ucs.of (d % 4 * 16777216) = ⟨d % 4, 0, 0, 0⟩ := by
                simp only [Ucs.of, Ucs.mk.injEq]; omega
              rw [e5]
            · rw [if_neg (by omega), if_neg c6]
              by_cases c7 : d < 0xfe
              · rw [if_pos (by omega), if_pos c7, shl6_40 h, or8_zero _ (by omega)]
                have e5 : Ucs.of (d % 2 * 1073741824) = ⟨d % 2 * 64, 0, 0, 0⟩ := by
                  simp only [Ucs.of, Ucs.mk.injEq]; omega
                rw [e5]
              · rw [if_neg (by omega), if_neg c7]

/-- Is `d` a continuation byte? -/
abbrev Cont (d : Nat) : Prop := 0x80 ≤ d ∧ d < 0xc0

theorem last_eq (o : Opts) (s : Nat) (L : Ucs) {P d : Nat} (h : d < 256) (hP : P < 2 ^ 25) :
    last o ⟨s, L, .of (P * 64)⟩ d =
      if Cont d then commit o ⟨s, L, .of (P * 64 + d % 64)⟩ else dead [] := by
  unfold last
  rw [isCont_iff h]
  by_cases c : Cont d
  · rw [if_pos (by simpa using c), if_pos c]
    have e : or8 (P * 64 % 256) (d &&& 0x3f) = (P * 64 + d % 64) % 256 := by
      have : P * 64 % 256 = P % 4 * 2 ^ 6 := by omega
      rw [and3f h, this, or8_add (by omega) (by omega)]
      omega
    simp only [Ucs.of, e]
    congr 1
    simp only [Prod.mk.injEq, Priv.mk.injEq, Ucs.mk.injEq, true_and, and_true]; omega
  · rw [if_neg (by simpa using c), if_neg c]

theorem mid1_eq (s s' : Nat) (L : Ucs) {P d : Nat} (h : d < 256) (hP : P < 2 ^ 19) :
    mid1 ⟨s, L, .of (P * 4096)⟩ d s' =
      if Cont d then (⟨s', L, .of ((P * 64 + d % 64) * 64)⟩, [], none) else dead [] := by
  unfold mid1
  rw [isCont_iff h]
  by_cases c : Cont d
  · rw [if_pos (by simpa using c), if_pos c]
    have e : or8 (P * 4096 / 256 % 256) ((d >>> 2) &&& 0x0f) = (P * 16 + d % 64 / 4) % 256 := by
      have : P * 4096 / 256 % 256 = P % 16 * 2 ^ 4 := by omega
      rw [shr2_0f h, this, or8_add (by omega) (by omega)]
      omega
    have e2 : or8 (P * 4096 % 256) ((d <<< 6) &&& 0xc0) = d % 4 * 64 := by
      have : P * 4096 % 256 = 0 := by omega
      rw [shl6_c0 h, this, or8_zero _ (by omega)]
    simp only [Ucs.of, e, e2]
    simp only [Prod.mk.injEq, Priv.mk.injEq, Ucs.mk.injEq, true_and, and_true]; omega
  · rw [if_neg (by simpa using c), if_neg c]

theorem mid2_eq (s s' : Nat) (L : Ucs) {P d : Nat} (h : d < 256) (hP : P < 2 ^ 13) :
    mid2 ⟨s, L, .of (P * 262144)⟩ d s' =
      if Cont d then (⟨s', L, .of ((P * 64 + d % 64) * 4096)⟩, [], none) else dead [] := by
  unfold mid2
  rw [isCont_iff h]
  by_cases c : Cont d
  · rw [if_pos (by simpa using c), if_pos c]
    have e : or8 (P * 262144 / 65536 % 256) ((d >>> 4) &&& 0x03) = (P * 4 + d % 64 / 16) % 256 := by
      have : P * 262144 / 65536 % 256 = P % 64 * 2 ^ 2 := by omega
      rw [shr4_03 h, this, or8_add (by omega) (by omega)]
      omega
    have e2 : or8 (P * 262144 / 256 % 256) ((d <<< 4) &&& 0xf0) = d % 16 * 16 := by
      have : P * 262144 / 256 % 256 = 0 := by omega
      rw [shl4_f0 h, this, or8_zero _ (by omega)]
    simp only [Ucs.of, e, e2]
    simp only [Prod.mk.injEq, Priv.mk.injEq, Ucs.mk.injEq, true_and, and_true]; omega
  · rw [if_neg (by simpa using c), if_neg c]

theorem step62 (o : Opts) (L : Ucs) {P d : Nat} (h : d < 256) (hP : P < 2 ^ 7) :
    step o ⟨62, L, .of (P * 16777216)⟩ d =
      if Cont d then (⟨63, L, .of ((P * 64 + d % 64) * 262144)⟩, [], none) else dead [] := by
  unfold step
  simp only
  rw [isCont_iff h]
  by_cases c : Cont d
  · rw [if_pos (by simpa using c), if_pos c]
    have e : or8 (P * 16777216 / 65536 % 256) ((d <<< 2) &&& 0xfc) = d % 64 * 4 := by
      have : P * 16777216 / 65536 % 256 = 0 := by omega
      rw [shl2_fc h, this, or8_zero _ (by omega)]
    simp only [Ucs.of, e]
    simp only [Prod.mk.injEq, Priv.mk.injEq, Ucs.mk.injEq, true_and, and_true]; omega
  · rw [if_neg (by simpa using c), if_neg c]

theorem step31 (o : Opts) (L : Ucs) {P d : Nat} (h : d < 256) (hP : P < 16) :
    step o ⟨31, L, .of (P * 4096)⟩ d =
      if Cont d then
        if !o.overlong ∧ P * 64 + d % 64 < 32 then dead [] else (⟨32, L, .of ((P * 64 + d % 64) * 64)⟩, [], none)
      else dead [] := by
  unfold step
  simp only [or8_or8]
  rw [isCont_iff h]
  by_cases c : Cont d
  · rw [if_pos (by simpa using c), if_pos c]
    unfold short
    have e0 : or8 (P * 4096 / 256 % 256) ((d >>> 2) &&& 0x08) = P * 16 + d % 64 / 32 * 8 := by
      have : P * 4096 / 256 % 256 = P * 2 ^ 4 := by omega
      rw [shr2_08 h, this, or8_add (by omega) (by omega)]
    have e : or8 (P * 4096 / 256 % 256) (((d >>> 2) &&& 0x08) ||| ((d >>> 2) &&& 0x07)) = P * 16 + d % 64 / 4 := by
      have : P * 4096 / 256 % 256 = P * 2 ^ 4 := by omega
      rw [shr2_split h, this, or8_add (by omega) (by omega)]
    have e2 : or8 (P * 4096 % 256) ((d <<< 6) &&& 0xc0) = d % 4 * 64 := by
      have : P * 4096 % 256 = 0 := by omega
      rw [shl6_c0 h, this, or8_zero _ (by omega)]
    simp only [Ucs.of, e, e0, e2, Ucs.zero, Ucs.mk.injEq]
    refine ite_congr (propext ⟨?_, ?_⟩) (fun _ => rfl) (fun _ => ?_)
    · rintro ⟨a, b⟩; exact ⟨a, by omega⟩
    · rintro ⟨a, b⟩; exact ⟨a, by omega⟩
    · simp only [Prod.mk.injEq, Priv.mk.injEq, Ucs.mk.injEq, true_and, and_true]; omega
  · rw [if_neg (by simpa using c), if_neg c]

theorem step41 (o : Opts) (L : Ucs) {P d : Nat} (h : d < 256) (hP : P < 8) :
    step o ⟨41, L, .of (P * 262144)⟩ d =
      if Cont d then
        if !o.overlong ∧ P * 64 + d % 64 < 16 then dead [] else (⟨42, L, .of ((P * 64 + d % 64) * 4096)⟩, [], none)
      else dead [] := by
  unfold step
  simp only [or8_or8]
  rw [isCont_iff h]
  by_cases c : Cont d
  · rw [if_pos (by simpa using c), if_pos c]
    unfold short
    have e0 : or8 (P * 262144 / 65536 % 256) ((d >>> 4) &&& 0x03) = P * 4 + d % 64 / 16 := by
      have : P * 262144 / 65536 % 256 = P * 2 ^ 2 := by omega
      rw [shr4_03 h, this, or8_add (by omega) (by omega)]
    have e2 : or8 (P * 262144 / 256 % 256) ((d <<< 4) &&& 0xf0) = d % 16 * 16 := by
      have : P * 262144 / 256 % 256 = 0 := by omega
      rw [shl4_f0 h, this, or8_zero _ (by omega)]
    simp only [Ucs.of, e0, e2, Ucs.zero, Ucs.mk.injEq]
    refine ite_congr (propext ⟨?_, ?_⟩) (fun _ => rfl) (fun _ => ?_)
    · rintro ⟨a, b⟩; exact ⟨a, by omega⟩
    · rintro ⟨a, b⟩; exact ⟨a, by omega⟩
    · simp only [Prod.mk.injEq, Priv.mk.injEq, Ucs.mk.injEq, true_and, and_true]; omega
  · rw [if_neg (by simpa using c), if_neg c]

theorem step51 (o : Opts) (L : Ucs) {P d : Nat} (h : d < 256) (hP : P < 4) :
    step o ⟨51, L, .of (P * 16777216)⟩ d =
      if Cont d then
        if !o.overlong ∧ P * 64 + d % 64 < 8 then dead [] else (⟨52, L, .of ((P * 64 + d % 64) * 262144)⟩, [], none)
      else dead [] := by
  unfold step
  simp only [or8_or8]
  rw [isCont_iff h]
  by_cases c : Cont d
  · rw [if_pos (by simpa using c), if_pos c]
    unfold short
    have z : P * 16777216 / 65536 % 256 = 0 := by omega
    have e0 : or8 (P * 16777216 / 65536 % 256) ((d <<< 2) &&& 0xe0) = d % 64 / 8 * 32 := by
      rw [shl2_e0 h, z, or8_zero _ (by omega)]
    have e2 : or8 (P * 16777216 / 65536 % 256) (((d <<< 2) &&& 0xe0) ||| ((d <<< 2) &&& 0x1c)) = d % 64 * 4 := by
      rw [shl2_split h, z, or8_zero _ (by omega)]
    simp only [Ucs.of, e0, e2, Ucs.zero, Ucs.mk.injEq]
    refine ite_congr (propext ⟨?_, ?_⟩) (fun _ => rfl) (fun _ => ?_)
    · rintro ⟨a, b⟩; exact ⟨a, by omega⟩
    · rintro ⟨a, b⟩; exact ⟨a, by omega⟩
    · simp only [Prod.mk.injEq, Priv.mk.injEq, Ucs.mk.injEq, true_and, and_true]; omega
  · rw [if_neg (by simpa using c), if_neg c]

theorem step61 (o : Opts) (L : Ucs) {P d : Nat} (h : d < 256) (hP : P < 2) :
    step o ⟨61, L, .of (P * 1073741824)⟩ d =
      if Cont d then
        if !o.overlong ∧ P * 64 + d % 64 < 4 then dead [] else (⟨62, L, .of ((P * 64 + d % 64) * 16777216)⟩, [], none)
      else dead [] := by
  unfold step
  simp only [or8_or8]
  rw [isCont_iff h]
  by_cases c : Cont d
  · rw [if_pos (by simpa using c), if_pos c]
    unfold short
    have z : P * 1073741824 / 16777216 % 256 = P * 2 ^ 6 := by omega
    have e0 : or8 (P * 1073741824 / 16777216 % 256) (d &&& 0x3c) = P * 64 + d % 64 / 4 * 4 := by
      rw [and3c h, z, or8_add (by omega) (by omega)]
    have e2 : or8 (P * 1073741824 / 16777216 % 256) ((d &&& 0x3c) ||| (d &&& 0x03)) = P * 64 + d % 64 := by
      rw [and3_split h, z, or8_add (by omega) (by omega)]
    simp only [Ucs.of, e0, e2, Ucs.zero, Ucs.mk.injEq]
    refine ite_congr (propext ⟨?_, ?_⟩) (fun _ => rfl) (fun _ => ?_)
    · rintro ⟨a, b⟩; exact ⟨a, by omega⟩
    · rintro ⟨a, b⟩; exact ⟨a, by omega⟩
    · simp only [Prod.mk.injEq, Priv.mk.injEq, Ucs.mk.injEq, true_and, and_true]; omega
  · rw [if_neg (by simpa using c), if_neg c]

end Verif.Utf8
