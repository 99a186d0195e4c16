import Verif.Proofs.Utf8
/-
Runs of the UTF-8 decoder over whole byte sequences.
-/
namespace Verif.Utf8
open Verif.Engine Verif.Spec

section
variable {σ : Type} (m : Machine σ)

theorem feed_ret {t t' : σ} {d : Nat} {out : List Datum} {st : Status} (ds : List Nat)
    (h : m.step t d = (t', out, some st)) : m.feed t (d :: ds) = .ret 1 t' out st := by
  unfold Machine.feed; rw [h]

/-- Put the result of one silent step before a result. -/
def Fed.after {σ : Type} : Fed σ → Fed σ
  | .more t out => .more t out
  | .ret k t out st => .ret (k + 1) t out st

theorem feed_more {t t' : σ} {d : Nat} (ds : List Nat) (h : m.step t d = (t', [], none)) :
    m.feed t (d :: ds) = Fed.after (m.feed t' ds) := by
  rw [Machine.feed, h]
  simp only
  cases m.feed t' ds <;> simp [Fed.after]

/-- A result that was reached does not depend on the bytes after it. -/
theorem feed_prefix {ds es : List Nat} {k : Nat} {t t' : σ} {out : List Datum} {st : Status}
    (h : m.feed t ds = .ret k t' out st) (he : ds.take k = es.take k) (hl : k ≤ es.length) :
    m.feed t es = .ret k t' out st := by
  induction ds generalizing t k es out with
  | nil => simp [Machine.feed] at h
  | cons d ds ih =>
    rw [Machine.feed] at h
    cases es with
    | nil =>
      simp only [List.length_nil, Nat.le_zero] at hl
      subst hl
      split at h
      · simp at h
      · split at h <;> simp at h
    | cons e es =>
      have hk : k ≠ 0 := by
        rintro rfl
        split at h
        · simp at h
        · split at h <;> simp at h
      obtain ⟨k, rfl⟩ := Nat.exists_eq_succ_of_ne_zero hk
      simp only [List.take_succ_cons, List.cons.injEq] at he
      rw [Machine.feed, ← he.1]
      split at h
      · exact h
      · split at h
        · simp at h
        · rename_i hf
          simp only [Fed.ret.injEq, Nat.succ_eq_add_one, Nat.add_right_cancel_iff] at h
          obtain ⟨rfl, rfl, rfl, rfl⟩ := h
          have := ih hf he.2 (by simpa using hl)
          rw [this]

theorem feed_ret_pos {ds : List Nat} {k : Nat} {t t' : σ} {out : List Datum} {st : Status}
    (h : m.feed t ds = .ret k t' out st) : 1 ≤ k ∧ k ≤ ds.length := by
  induction ds generalizing t k out t' st with
  | nil => simp [Machine.feed] at h
  | cons d ds ih =>
    rw [Machine.feed] at h
    split at h
    · simp only [Fed.ret.injEq] at h
      rw [← h.1]
      simp
    · split at h
      · simp at h
      · rename_i hf
        simp only [Fed.ret.injEq] at h
        have := ih hf
        rw [← h.1]
        simp; omega
end

theorem ufeed_ret {o : Opts} {t t' : Priv} {d : Nat} {out : List Datum} {st : Status} (ds : List Nat)
    (h : step o t d = (t', out, some st)) : (machine o).feed t (d :: ds) = .ret 1 t' out st :=
  feed_ret (machine o) ds h

theorem ufeed_more {o : Opts} {t t' : Priv} {d : Nat} (ds : List Nat) (h : step o t d = (t', [], none)) :
    (machine o).feed t (d :: ds) = Fed.after ((machine o).feed t' ds) :=
  feed_more (machine o) ds h

/-! ### Steps, uniformly in the length of the form -/

theorem cases_n {n : Nat} (h1 : 2 ≤ n) (h2 : n ≤ 6) : n = 2 ∨ n = 3 ∨ n = 4 ∨ n = 5 ∨ n = 6 := by omega

theorem commit_status (o : Opts) (s s' : Nat) (L u : Ucs) : commit o ⟨s, L, u⟩ = commit o ⟨s', L, u⟩ := rfl

theorem step_later (o : Opts) (L : Ucs) {n j P d : Nat} (h : d < 256) (hn : n ≤ 6) (hj : 1 ≤ j) (hjn : j + 2 ≤ n)
    (hP : P < 2 ^ (7 - n) * 64 ^ j) :
    step o ⟨10 * n + j + 1, L, .of (P * 64 ^ (n - 1 - j))⟩ d =
      if Cont d then
        if j + 2 = n then commit o ⟨0, L, .of (P * 64 + d % 64)⟩
        else (⟨10 * n + j + 2, L, .of ((P * 64 + d % 64) * 64 ^ (n - 2 - j))⟩, [], none)
      else dead [] := by
  rcases cases_n (by omega) hn with rfl | rfl | rfl | rfl | rfl
  · omega
  · have : j = 1 := by omega
    subst this
    simp only [if_true, Nat.reduceMul, Nat.reduceAdd, Nat.reduceSub, Nat.reducePow] at hP ⊢
    show last o _ d = _
    rw [last_eq _ _ _ h (by omega)]
    simp only [commit_status o _ 0]
  · have : j = 1 ∨ j = 2 := by omega
    rcases this with rfl | rfl <;>
      simp only [if_true, Nat.reduceMul, Nat.reduceAdd, Nat.reduceSub, Nat.reducePow, Nat.reduceEqDiff, if_false] at hP ⊢
    · show mid1 _ d _ = _
      rw [mid1_eq _ _ _ h (by omega)]
    · show last o _ d = _
      rw [last_eq _ _ _ h (by omega)]
      simp only [commit_status o _ 0]
  · have : j = 1 ∨ j = 2 ∨ j = 3 := by omega
    rcases this with rfl | rfl | rfl <;>
      simp only [if_true, Nat.reduceMul, Nat.reduceAdd, Nat.reduceSub, Nat.reducePow, Nat.reduceEqDiff, if_false] at hP ⊢
    · show mid2 _ d _ = _
      rw [mid2_eq _ _ _ h (by omega)]
    · show mid1 _ d _ = _
      rw [mid1_eq _ _ _ h (by omega)]
    · show last o _ d = _
      rw [last_eq _ _ _ h (by omega)]
      simp only [commit_status o _ 0]
  · have : j = 1 ∨ j = 2 ∨ j = 3 ∨ j = 4 := by omega
    rcases this with rfl | rfl | rfl | rfl <;>
      simp only [if_true, Nat.reduceMul, Nat.reduceAdd, Nat.reduceSub, Nat.reducePow, Nat.reduceEqDiff, if_false] at hP ⊢
    · rw [step62 _ _ h (by omega)]
    · show mid2 _ d _ = _
      rw [mid2_eq _ _ _ h (by omega)]
    · show mid1 _ d _ = _
      rw [mid1_eq _ _ _ h (by omega)]
    · show last o _ d = _
      rw [last_eq _ _ _ h (by omega)]
      simp only [commit_status o _ 0]

/-- The step on the byte after the lead byte. -/
theorem step_second (o : Opts) (L : Ucs) {n P d : Nat} (h : d < 256) (hn : n ≤ 6) (hn2 : 2 ≤ n)
    (hP : P < 2 ^ (7 - n)) :
    step o ⟨10 * n + 1, L, .of (P * 64 ^ (n - 1))⟩ d =
      if Cont d then
        if n = 2 then commit o ⟨0, L, .of (P * 64 + d % 64)⟩
        else if !o.overlong ∧ P * 64 + d % 64 < utf8Min n / 64 ^ (n - 2) then dead []
        else (⟨10 * n + 2, L, .of ((P * 64 + d % 64) * 64 ^ (n - 2))⟩, [], none)
      else dead [] := by
  rcases cases_n hn2 hn with rfl | rfl | rfl | rfl | rfl <;>
    simp only [if_true, Nat.reduceMul, Nat.reduceAdd, Nat.reduceSub, Nat.reducePow, Nat.reduceEqDiff, if_false,
      Nat.pow_one, utf8Min, utf8Cap, Nat.reduceDiv] at hP ⊢
  · show last o _ d = _
    rw [last_eq _ _ _ h (by omega)]
    simp only [commit_status o _ 0]
  · exact step31 o L h (by omega)
  · exact step41 o L h (by omega)
  · exact step51 o L h (by omega)
  · exact step61 o L h (by omega)

/-- Lead bytes: class and payload. -/
theorem step_lead (o : Opts) (L : Ucs) {n P : Nat} (hn2 : 2 ≤ n) (hn : n ≤ 6) (hP : P < 2 ^ (7 - n))
    (hs : n ≤ 4 ∨ o.super = true) (ho : n = 2 → (2 ≤ P ∨ o.overlong = true)) :
    step o ⟨0, L, .zero⟩ (256 - 2 ^ (8 - n) + P) = (⟨10 * n + 1, L, .of (P * 64 ^ (n - 1))⟩, [], none) := by
  rcases cases_n hn2 hn with rfl | rfl | rfl | rfl | rfl <;>
    simp only [Nat.reduceMul, Nat.reduceAdd, Nat.reduceSub, Nat.reducePow, Nat.pow_one] at hP ⊢ <;>
    rw [step_first o L (by omega), if_neg (by omega)]
  · rw [if_pos (by omega), if_neg, show (192 + P) % 32 = P by omega]
    rintro ⟨a, b⟩
    rcases ho rfl with h | h
    · omega
    · simp [h] at a
  · rw [if_neg (by omega), if_pos (by omega), show (224 + P) % 16 = P by omega]
  · rw [if_neg (by omega), if_neg (by omega), if_pos (by omega), show (240 + P) % 8 = P by omega]
  · rw [if_neg (by omega), if_neg (by omega), if_neg (by omega), if_pos (by omega), if_neg,
      show (248 + P) % 4 = P by omega]
    rcases hs with h | h
    · omega
    · simp [h]
  · rw [if_neg (by omega), if_neg (by omega), if_neg (by omega), if_neg (by omega), if_pos (by omega), if_neg,
      show (252 + P) % 2 = P by omega]
    rcases hs with h | h
    · omega
    · simp [h]

/-- Every byte is refused at once or is the lead byte of some form. -/
theorem lead_cases (o : Opts) (L : Ucs) {d : Nat} (h : d < 256) :
    step o ⟨0, L, .zero⟩ d = dead [] ∨
    ∃ n P, 2 ≤ n ∧ n ≤ 6 ∧ P < 2 ^ (7 - n) ∧ (n ≤ 4 ∨ o.super = true) ∧ (n = 2 → (2 ≤ P ∨ o.overlong = true)) ∧
      d = 256 - 2 ^ (8 - n) + P := by
  rw [step_first o L h]
  by_cases c2 : d < 0xc0
  · rw [if_pos c2]; exact Or.inl rfl
  · rw [if_neg c2]
    by_cases c3 : d < 0xe0
    · rw [if_pos c3]
      split
      · exact Or.inl rfl
      · rename_i hno
        refine Or.inr ⟨2, d - 192, by omega, by omega, by omega, by omega, ?_, by omega⟩
        intro _
        cases ho : o.overlong with
        | true => exact Or.inr rfl
        | false => rw [ho] at hno; simp at hno; left; omega
    · rw [if_neg c3]
      by_cases c4 : d < 0xf0
      · exact Or.inr ⟨3, d - 224, by omega, by omega, by omega, by omega, by omega, by omega⟩
      · rw [if_neg c4]
        by_cases c5 : d < 0xf8
        · exact Or.inr ⟨4, d - 240, by omega, by omega, by omega, by omega, by omega, by omega⟩
        · rw [if_neg c5]
          by_cases c6 : d < 0xfc
          · rw [if_pos c6]
            split
            · exact Or.inl rfl
            · rename_i hno
              exact Or.inr ⟨5, d - 248, by omega, by omega, by omega, Or.inr (by simpa using hno), by omega, by omega⟩
          · rw [if_neg c6]
            by_cases c7 : d < 0xfe
            · rw [if_pos c7]
              split
              · exact Or.inl rfl
              · rename_i hno
                exact Or.inr ⟨6, d - 252, by omega, by omega, by omega, Or.inr (by simpa using hno), by omega, by omega⟩
            · rw [if_neg c7]; exact Or.inl rfl

/-! ### Tails -/

theorem utf8Tail_length : ∀ (m v : Nat), (utf8Tail m v).length = m
  | 0, _ => rfl
  | m + 1, v => by simp [utf8Tail, utf8Tail_length m v]

theorem utf8Form_length {n : Nat} (h : 1 ≤ n) (v : Nat) : (utf8Form n v).length = n := by
  simp [utf8Form, utf8Tail_length]; omega

theorem utf8Tail_mod : ∀ (m v : Nat), utf8Tail m (v % 64 ^ m) = utf8Tail m v
  | 0, _ => rfl
  | m + 1, v => by
    have key : ∀ (m k v : Nat), m ≤ k → utf8Tail m (v % 64 ^ k) = utf8Tail m v := by
      intro m
      induction m with
      | zero => intros; rfl
      | succ m ih =>
        intro k v hk
        simp only [utf8Tail]
        rw [ih k v (by omega)]
        congr 2
        have : 64 ^ k = 64 ^ m * 64 * 64 ^ (k - m - 1) := by
          rw [← Nat.pow_succ, ← Nat.pow_add]; congr 1; omega
        rw [this, Nat.mul_assoc, Nat.mod_mul_right_div_self, Nat.mod_mul_right_mod]
    exact key (m + 1) (m + 1) v (Nat.le_refl _)

theorem pow_pos' (m : Nat) : 0 < 64 ^ m := Nat.pow_pos (by decide)

theorem div_pow_succ (v m : Nat) : v / 64 ^ m / 64 = v / 64 ^ (m + 1) := by
  rw [Nat.div_div_eq_div_mul, Nat.pow_succ]

theorem split_digit (v m : Nat) : v / 64 ^ m = v / 64 ^ (m + 1) * 64 + v / 64 ^ m % 64 := by
  have := Nat.div_add_mod (v / 64 ^ m) 64
  rw [div_pow_succ] at this
  omega

/-- Run over the last `m ≥ 1` bytes of a form. -/
theorem feed_tail (o : Opts) (L : Ucs) (n : Nat) (hn : n ≤ 6) (t : Priv) (out : List Datum) (st : Status) (v : Nat)
    (hc : commit o ⟨0, L, .of v⟩ = (t, out, some st)) (hv : v < utf8Cap n) (rest : List Nat) :
    ∀ (m j : Nat), 1 ≤ m → 1 ≤ j → m + j + 1 = n →
      (machine o).feed ⟨10 * n + j + 1, L, .of (v / 64 ^ m * 64 ^ m)⟩ (utf8Tail m v ++ rest) = .ret m t out st
  | 0, _, h, _, _ => by omega
  | m + 1, j, _, hj, hm => by
    have hd : 0x80 + v / 64 ^ m % 64 < 256 := by have := Nat.mod_lt (v / 64 ^ m) (show 64 > 0 by decide); omega
    have hcont : Cont (0x80 + v / 64 ^ m % 64) := by
      have := Nat.mod_lt (v / 64 ^ m) (show 64 > 0 by decide); constructor <;> omega
    have hP : v / 64 ^ (m + 1) < 2 ^ (7 - n) * 64 ^ j := by
      rw [Nat.div_lt_iff_lt_mul (pow_pos' _)]
      unfold utf8Cap at hv
      have : 2 ^ (7 - n) * 64 ^ j * 64 ^ (m + 1) = 2 ^ (7 - n) * 64 ^ (n - 1) := by
        rw [Nat.mul_assoc, ← Nat.pow_add]; congr 2; omega
      rw [this]; exact hv
    have hs := step_later o L (n := n) (j := j) (P := v / 64 ^ (m + 1)) hd hn hj (by omega) hP
    rw [if_pos hcont] at hs
    have hmod : (0x80 + v / 64 ^ m % 64) % 64 = v / 64 ^ m % 64 := by omega
    have hpow : n - 1 - j = m + 1 := by omega
    rw [hmod, ← split_digit, hpow] at hs
    show (machine o).feed _ ((0x80 + v / 64 ^ m % 64) :: (utf8Tail m v ++ rest)) = _
    by_cases hm0 : m = 0
    · subst hm0
      rw [if_pos (by omega)] at hs
      simp only [Nat.pow_zero, Nat.div_one] at hs
      rw [hc] at hs
      simp only [Nat.pow_zero, Nat.div_one]
      exact feed_ret (machine o) _ hs
    · rw [if_neg (by omega)] at hs
      have := feed_tail o L n hn t out st v hc hv rest m (j + 1) (by omega) (by omega) (by omega)
      rw [show n - 2 - j = m by omega] at hs
      rw [feed_more (machine o) _ hs]
      rw [show 10 * n + j + 2 = 10 * n + (j + 1) + 1 by omega, this]
      rfl

/-- A form the decoder reads to its end: not too long, and shortest unless the option `overlong` is given. -/
structure Readable (o : Opts) (n v : Nat) : Prop where
  two : 2 ≤ n
  six : n ≤ 6
  super : n ≤ 4 ∨ o.super = true
  cap : v < utf8Cap n
  min : utf8Min n ≤ v ∨ o.overlong = true

theorem pow_facts {n : Nat} (h1 : 3 ≤ n) (h2 : n ≤ 6) :
    utf8Min n = utf8Min n / 64 ^ (n - 2) * 64 ^ (n - 2) := by
  rcases cases_n (by omega) h2 with rfl | rfl | rfl | rfl | rfl <;> simp_all [utf8Min, utf8Cap]

/-- Run over a whole readable form. -/
theorem feed_form (o : Opts) (L : Ucs) {n v : Nat} (h : Readable o n v) {t : Priv} {out : List Datum} {st : Status}
    (hc : commit o ⟨0, L, .of v⟩ = (t, out, some st)) (rest : List Nat) :
    (machine o).feed ⟨0, L, .zero⟩ (utf8Form n v ++ rest) = .ret n t out st := by
  obtain ⟨h2, h6, hs, hcap, hmin⟩ := h
  have hP : v / 64 ^ (n - 1) < 2 ^ (7 - n) := by
    rw [Nat.div_lt_iff_lt_mul (pow_pos' _)]; exact hcap
  have hlead : (machine o).step ⟨0, L, .zero⟩ (256 - 2 ^ (8 - n) + v / 64 ^ (n - 1)) =
      (⟨10 * n + 1, L, .of (v / 64 ^ (n - 1) * 64 ^ (n - 1))⟩, [], none) := step_lead o L h2 h6 hP hs (by
    rintro rfl
    rcases hmin with h | h
    · left
      simp only [utf8Min, if_true] at h
      rw [Nat.le_div_iff_mul_le (pow_pos' _)]
      simpa using h
    · exact Or.inr h)
  show (machine o).feed _ ((256 - 2 ^ (8 - n) + v / 64 ^ (n - 1)) :: (utf8Tail (n - 1) v ++ rest)) = _
  rw [feed_more (machine o) _ hlead]
  obtain ⟨m, rfl⟩ : ∃ m, n = m + 2 := ⟨n - 2, by omega⟩
  simp only [Nat.add_succ_sub_one] at hP ⊢
  have hd : 0x80 + v / 64 ^ m % 64 < 256 := by have := Nat.mod_lt (v / 64 ^ m) (show 64 > 0 by decide); omega
  have hcont : Cont (0x80 + v / 64 ^ m % 64) := by
    have := Nat.mod_lt (v / 64 ^ m) (show 64 > 0 by decide); constructor <;> omega
  have hmod : (0x80 + v / 64 ^ m % 64) % 64 = v / 64 ^ m % 64 := by omega
  have hsec := step_second o L (n := m + 2) hd h6 h2 hP
  rw [if_pos hcont, hmod] at hsec
  simp only [Nat.add_succ_sub_one, Nat.add_sub_cancel] at hsec
  rw [← split_digit] at hsec
  show Fed.after ((machine o).feed _ ((0x80 + v / 64 ^ m % 64) :: (utf8Tail m v ++ rest))) = _
  by_cases hm : m = 0
  · subst hm
    rw [if_pos rfl] at hsec
    simp only [Nat.pow_zero, Nat.div_one] at hsec
    rw [hc] at hsec
    simp only [Nat.pow_zero, Nat.div_one]
    rw [ufeed_ret _ hsec]
    rfl
  · rw [if_neg (by omega), if_neg] at hsec
    · rw [ufeed_more _ hsec]
      have := feed_tail o L (m + 2) h6 t out st v hc hcap rest m 1 (by omega) (by omega) (by omega)
      rw [show 10 * (m + 2) + 2 = 10 * (m + 2) + 1 + 1 by omega, this]
      rfl
    · rintro ⟨a, b⟩
      rcases hmin with h | h
      · have hf := pow_facts (n := m + 2) (by omega) h6
        simp only [Nat.add_sub_cancel] at hf
        rw [hf, ← Nat.le_div_iff_mul_le (pow_pos' _)] at h
        omega
      · simp [h] at a

/-! ### Every byte sequence -/

theorem tail_cases (o : Opts) (L : Ucs) (n : Nat) (hn : n ≤ 6) :
    ∀ (m j P : Nat) (bs : List Nat), (∀ b ∈ bs, b < 256) → 1 ≤ m → 1 ≤ j → m + j + 1 = n → P < 2 ^ (7 - n) * 64 ^ j →
      (∃ v rest, v / 64 ^ m = P ∧ bs = utf8Tail m v ++ rest) ∨
      (∃ v tl, v / 64 ^ m = P ∧ tl ≠ [] ∧ utf8Tail m v = bs ++ tl) ∨
      ∃ k, (machine o).feed ⟨10 * n + j + 1, L, .of (P * 64 ^ m)⟩ bs = .ret k .zero [] .deadend ∧
        ∃ v, v / 64 ^ m = P ∧ bs.take (k - 1) <+: utf8Tail m v
  | 0, _, _, _, _, h, _, _, _ => by omega
  | m + 1, j, P, [], _, _, _, _, _ => by
    right; left
    exact ⟨P * 64 ^ (m + 1), _, Nat.mul_div_cancel _ (pow_pos' _), by simp [utf8Tail], rfl⟩
  | m + 1, j, P, d :: bs, hb, _, hj, hm, hP => by
    have hd : d < 256 := hb d (by simp)
    have hs := step_later o L (n := n) (j := j) hd hn hj (by omega) hP
    rw [show n - 1 - j = m + 1 by omega] at hs
    by_cases hc : Cont d
    · rw [if_pos hc] at hs
      have hq : (P * 64 + d % 64) / 64 = P := by omega
      have hdig : 0x80 + (P * 64 + d % 64) % 64 = d := by obtain ⟨a, b⟩ := hc; omega
      by_cases hm0 : m = 0
      · subst hm0
        left
        refine ⟨P * 64 + d % 64, bs, by simpa using hq, ?_⟩
        simp only [utf8Tail, Nat.pow_zero, Nat.div_one, hdig]
        rfl
      · rw [if_neg (by omega), show n - 2 - j = m by omega] at hs
        have hP' : P * 64 + d % 64 < 2 ^ (7 - n) * 64 ^ (j + 1) := by
          rw [Nat.pow_succ, ← Nat.mul_assoc]; omega
        have up : ∀ v, v / 64 ^ m = P * 64 + d % 64 →
            v / 64 ^ (m + 1) = P ∧ utf8Tail (m + 1) v = d :: utf8Tail m v := by
          intro v hv
          refine ⟨by rw [← div_pow_succ, hv, hq], ?_⟩
          simp only [utf8Tail, hv, hdig]
        rcases tail_cases o L n hn m (j + 1) _ bs (fun b hb' => hb b (by simp [hb'])) (by omega) (by omega) (by omega) hP'
          with ⟨v, rest, h1, h2⟩ | ⟨v, tl, h1, h2, h3⟩ | ⟨k, h1, v, h2, h3⟩
        · left
          obtain ⟨u1, u2⟩ := up v h1
          exact ⟨v, rest, u1, by rw [u2, h2]; rfl⟩
        · right; left
          obtain ⟨u1, u2⟩ := up v h1
          exact ⟨v, tl, u1, h2, by rw [u2, h3]; rfl⟩
        · right; right
          obtain ⟨u1, u2⟩ := up v h2
          refine ⟨k + 1, ?_, v, u1, ?_⟩
          · rw [ufeed_more _ hs,
              show 10 * n + j + 2 = 10 * n + (j + 1) + 1 by omega, h1]
            rfl
          · obtain ⟨k, rfl⟩ : ∃ k', k = k' + 1 := ⟨k - 1, by have := (feed_ret_pos _ h1).1; omega⟩
            rw [u2]
            simpa using h3
    · rw [if_neg hc] at hs
      right; right
      exact ⟨1, ufeed_ret _ hs, P * 64 ^ (m + 1),
        Nat.mul_div_cancel _ (pow_pos' _), by simp⟩

theorem Readable.mk' (o : Opts) {n v P : Nat} (h2 : 2 ≤ n) (h6 : n ≤ 6) (hP : P < 2 ^ (7 - n))
    (hs : n ≤ 4 ∨ o.super = true) (hv : v / 64 ^ (n - 1) = P) (hmin : utf8Min n ≤ v ∨ o.overlong = true) :
    Readable o n v := by
  refine ⟨h2, h6, hs, ?_, hmin⟩
  unfold utf8Cap
  rw [← hv, Nat.div_lt_iff_lt_mul (pow_pos' _)] at hP
  exact hP

theorem min_le_full {n : Nat} (h3 : 3 ≤ n) (h6 : n ≤ 6) : utf8Min n ≤ 64 ^ (n - 1) - 1 := by
  rcases cases_n (by omega) h6 with rfl | rfl | rfl | rfl | rfl <;> simp_all [utf8Min, utf8Cap]

/-- A byte sequence begins with a readable form, or is a proper beginning of one, or is refused. -/
theorem form_cases (o : Opts) (L : Ucs) (bs : List Nat) (hb : ∀ b ∈ bs, b < 256) :
    (∃ n v rest, Readable o n v ∧ bs = utf8Form n v ++ rest) ∨
    (∃ n v tl, Readable o n v ∧ tl ≠ [] ∧ utf8Form n v = bs ++ tl) ∨
    ∃ k, (machine o).feed ⟨0, L, .zero⟩ bs = .ret k .zero [] .deadend ∧
      ∃ n v, Readable o n v ∧ bs.take (k - 1) <+: utf8Form n v := by
  have h0 : Readable o 2 0x80 := ⟨by decide, by decide, Or.inl (by decide), by decide, Or.inl (by decide)⟩
  match bs, hb with
  | [], _ => exact Or.inr (Or.inl ⟨2, 0x80, _, h0, by simp [utf8Form], rfl⟩)
  | d :: bs, hb =>
    rcases lead_cases o L (hb d (by simp)) with hd | ⟨n, P, h2, h6, hP, hs, ho, rfl⟩
    · exact Or.inr (Or.inr ⟨1, ufeed_ret _ hd, 2, 0x80, h0, by simp⟩)
    · have hlead := step_lead o L h2 h6 hP hs ho
      obtain ⟨m, rfl⟩ : ∃ m, n = m + 2 := ⟨n - 2, by omega⟩
      have form : ∀ v, v / 64 ^ (m + 1) = P →
          utf8Form (m + 2) v = (256 - 2 ^ (8 - (m + 2)) + P) :: utf8Tail (m + 1) v := by
        intro v hv
        simp only [utf8Form, Nat.add_succ_sub_one, hv]
      -- some readable form with this lead byte
      have hfull : ∃ v, v / 64 ^ (m + 1) = P ∧ Readable o (m + 2) v := by
        by_cases hm : m = 0
        · subst hm
          refine ⟨P * 64, by simp, Readable.mk' o h2 h6 hP hs (by simp) ?_⟩
          rcases ho rfl with h | h
          · left; simp [utf8Min]; omega
          · exact Or.inr h
        · have hv : (P * 64 ^ (m + 1) + (64 ^ (m + 1) - 1)) / 64 ^ (m + 1) = P := by
            have := pow_pos' (m + 1)
            rw [Nat.mul_comm, Nat.mul_add_div this, Nat.div_eq_of_lt (by omega), Nat.add_zero]
          refine ⟨_, hv, Readable.mk' o h2 h6 hP hs hv (Or.inl ?_)⟩
          have := min_le_full (n := m + 2) (by omega) h6
          simp only [Nat.add_succ_sub_one] at this
          omega
      obtain ⟨w, hw, hwr⟩ := hfull
      cases bs with
      | nil =>
        refine Or.inr (Or.inl ⟨m + 2, w, utf8Tail (m + 1) w, hwr, by simp [utf8Tail], ?_⟩)
        rw [form w hw]; rfl
      | cons e bs =>
        have he : e < 256 := hb e (by simp)
        have hsec := step_second o L (n := m + 2) he h6 h2 hP
        simp only [Nat.add_succ_sub_one, Nat.add_sub_cancel] at hsec
        have dead2 : step o ⟨10 * (m + 2) + 1, L, .of (P * 64 ^ (m + 1))⟩ e = dead [] →
            ∃ k, (machine o).feed ⟨0, L, .zero⟩ ((256 - 2 ^ (8 - (m + 2)) + P) :: e :: bs) = .ret k .zero [] .deadend ∧
              ∃ n v, Readable o n v ∧
                ((256 - 2 ^ (8 - (m + 2)) + P) :: e :: bs).take (k - 1) <+: utf8Form n v := by
          intro hde
          refine ⟨2, ?_, m + 2, w, hwr, ?_⟩
          · rw [ufeed_more _ hlead]
            simp only [Nat.add_succ_sub_one]
            rw [ufeed_ret _ hde]
            rfl
          · rw [form w hw]; simp
        by_cases hc : Cont e
        · rw [if_pos hc] at hsec
          have hq : (P * 64 + e % 64) / 64 = P := by omega
          have hdig : 0x80 + (P * 64 + e % 64) % 64 = e := by obtain ⟨a, b⟩ := hc; omega
          by_cases hm : m = 0
          · subst hm
            left
            refine ⟨2, P * 64 + e % 64, bs, Readable.mk' o h2 h6 hP hs (by simpa using hq) ?_, ?_⟩
            · rcases ho rfl with h | h
              · left; simp [utf8Min]; omega
              · exact Or.inr h
            · rw [form _ (by simpa using hq)]
              simp only [utf8Tail, Nat.pow_zero, Nat.div_one, Nat.zero_add, hdig]
              rfl
          · rw [if_neg (by omega)] at hsec
            by_cases hsh : !o.overlong ∧ P * 64 + e % 64 < utf8Min (m + 2) / 64 ^ m
            · rw [if_pos hsh] at hsec
              exact Or.inr (Or.inr (dead2 hsec))
            · rw [if_neg hsh] at hsec
              have hmin : ∀ v, v / 64 ^ m = P * 64 + e % 64 → utf8Min (m + 2) ≤ v ∨ o.overlong = true := by
                intro v hv
                cases hov : o.overlong with
                | true => exact Or.inr rfl
                | false =>
                  left
                  simp only [hov, Bool.not_false, true_and, Nat.not_lt] at hsh
                  have hf := pow_facts (n := m + 2) (by omega) h6
                  simp only [Nat.add_sub_cancel] at hf
                  rw [hf, ← Nat.le_div_iff_mul_le (pow_pos' _), hv]
                  exact hsh
              have up : ∀ v, v / 64 ^ m = P * 64 + e % 64 → v / 64 ^ (m + 1) = P ∧
                  utf8Form (m + 2) v = (256 - 2 ^ (8 - (m + 2)) + P) :: e :: utf8Tail m v := by
                intro v hv
                have h1 : v / 64 ^ (m + 1) = P := by rw [← div_pow_succ, hv, hq]
                refine ⟨h1, ?_⟩
                rw [form v h1]
                simp only [utf8Tail, hv, hdig]
              have hP' : P * 64 + e % 64 < 2 ^ (7 - (m + 2)) * 64 ^ 1 := by rw [Nat.pow_one]; omega
              rcases tail_cases o L (m + 2) h6 m 1 _ bs (fun b hb' => hb b (by simp [hb'])) (by omega) (by omega)
                (by omega) hP' with ⟨v, rest, h1, h2'⟩ | ⟨v, tl, h1, h2', h3⟩ | ⟨k, h1, v, h2', h3⟩
              · obtain ⟨u1, u2⟩ := up v h1
                exact Or.inl ⟨m + 2, v, rest, Readable.mk' o h2 h6 hP hs u1 (hmin v h1), by rw [u2, h2']; rfl⟩
              · obtain ⟨u1, u2⟩ := up v h1
                exact Or.inr (Or.inl ⟨m + 2, v, tl, Readable.mk' o h2 h6 hP hs u1 (hmin v h1), h2', by rw [u2, h3]; rfl⟩)
              · obtain ⟨u1, u2⟩ := up v h2'
                refine Or.inr (Or.inr ⟨k + 2, ?_, m + 2, v, Readable.mk' o h2 h6 hP hs u1 (hmin v h2'), ?_⟩)
                · rw [ufeed_more _ hlead]
                  simp only [Nat.add_succ_sub_one]
                  rw [ufeed_more _ hsec,
                    show 10 * (m + 2) + 2 = 10 * (m + 2) + 1 + 1 by omega, h1]
                  rfl
                · obtain ⟨k, rfl⟩ : ∃ k', k = k' + 1 := ⟨k - 1, by have := (feed_ret_pos _ h1).1; omega⟩
                  rw [u2]
                  simpa using h3
        · rw [if_neg hc] at hsec
          exact Or.inr (Or.inr (dead2 hsec))

/-- Steps that do not end the callback append nothing. -/
theorem step_silent (o : Opts) (t : Priv) (d : Nat) (h : (step o t d).2.2 = none) : (step o t d).2.1 = [] := by
  have hp : ∀ u out (k : List Engine.Datum → Out), (∀ x, (k x).2.2 ≠ none) → (pass o u out k).2.2 ≠ none := by
    intro u out k hk
    unfold pass
    split
    · simp [dead]
    · exact hk _
  have hcm : ∀ t, (commit o t).2.2 ≠ none := by
    intro t
    unfold commit
    simp only []
    (repeat' split) <;> first
      | (simp [dead]; done)
      | (apply hp; intro x; first | (simp; done) | (apply hp; intro y; simp))
  revert h
  unfold step
  simp only []
  split <;> (try unfold last) <;> (try unfold mid1) <;> (try unfold mid2) <;> (try unfold short) <;>
    (repeat' split) <;> first
      | (simp [dead]; done)
      | (intro h; exact absurd h (hcm _))

theorem feed_more_silent (o : Opts) : ∀ (bs : List Nat) (t t' : Priv) (out : List Engine.Datum),
    (machine o).feed t bs = .more t' out → out = []
  | [], t, t', out, h => by simp [Machine.feed] at h; exact h.2
  | d :: ds, t, t', out, h => by
    rw [Machine.feed] at h
    split at h
    · simp at h
    · rename_i t1 o1 hs
      have h1 : o1 = [] := by
        have := step_silent o t d (by show ((machine o).step t d).2.2 = none; rw [hs])
        have h2 : ((machine o).step t d).2.1 = [] := this
        rw [hs] at h2; exact h2
      split at h
      · rename_i hf
        have := feed_more_silent o ds _ _ _ hf
        simp only [Fed.more.injEq] at h
        rw [← h.2, h1, this]; rfl
      · simp at h

/-- `COMMIT()` without the option `cesu`. -/
theorem commit_plain (o : Opts) (hc : o.cesu = false) (s : Nat) {v : Nat} (hv : v < 2 ^ 32) :
    commit o ⟨s, .zero, .of v⟩ =
      if (Surrogate v ∧ o.loose = false) ∨ (v = 0 ∧ o.nul = false) then dead []
      else (.zero, [uniDatum v], some .nextphase) := by
  have hz : (Ucs.of v = .zero) ↔ v = 0 := by
    constructor
    · intro h
      have := congrArg Ucs.val h
      rw [Ucs.val_of hv] at this
      exact this
    · rintro rfl; rfl
  unfold commit pass Surrogate
  simp only [Ucs.val_of hv, hc, datum_of hv, hz, ne_eq, not_true_eq_false, if_false, Bool.false_eq_true]
  by_cases h0 : v = 0
  · subst h0
    cases o.nul <;> simp [Priv.zero]
  · cases o.loose <;> simp only [h0, false_and, if_false, or_false, Bool.false_eq_true, and_true, Bool.true_eq_false,
      and_false, if_true, List.nil_append] <;> (repeat' split) <;> first | rfl | omega

end Verif.Utf8
