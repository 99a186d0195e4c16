import Verif.Model.Escape
import Verif.Spec.Escape
import Verif.Props.Utf16
/-
C22–C24: escape sequences and numeric entities.  A decoder state with `status = 0` is the state at the beginning and
after every character, whatever the other fields hold.
-/
namespace Verif.Props
open Verif.Escape Verif.Spec
open Verif.Engine hiding Datum step
open Verif.Utf8 (feed_ret feed_more)

/-! ## Helpers -/

theorem hexb_iff (c n : Nat) : hexb c = some n ↔ HexByte c n := by
  constructor
  · intro h
    have hc : c < 103 := by
      apply Classical.byContradiction; intro hc
      unfold hexb at h
      rw [if_neg (by omega), if_neg (by omega), if_neg (by omega)] at h
      exact absurd h (by simp)
    have hn : n < 16 := by
      unfold hexb at h
      split at h
      · simp only [Option.some.injEq] at h; omega
      · split at h
        · simp only [Option.some.injEq] at h; omega
        · split at h
          · simp only [Option.some.injEq] at h; omega
          · simp at h
    have : ∀ c < 103, ∀ n < 16, hexb c = some n → ∃ s ∈ ["0123456789ABCDEF", "0123456789abcdef"],
        (s.toList.map Char.toNat)[n]? = some c := by decide +kernel
    exact this c hc n hn h
  · rintro ⟨s, hs, h⟩
    simp only [List.mem_cons, List.not_mem_nil, or_false] at hs
    have hn : n < 16 := by
      obtain ⟨hl, _⟩ := List.getElem?_eq_some_iff.mp h
      rcases hs with rfl | rfl
      · exact hl
      · exact hl
    rcases hs with rfl | rfl
    · have : ∀ n < 16, ∀ c, (("0123456789ABCDEF".toList.map Char.toNat)[n]? = some c) → hexb c = some n := by
        intro n hn c hc
        have : ∀ n < 16, (("0123456789ABCDEF".toList.map Char.toNat)[n]?).bind hexb = some n := by decide +kernel
        have := this n hn
        rw [hc] at this; exact this
      exact this n hn c h
    · have : ∀ n < 16, ∀ c, (("0123456789abcdef".toList.map Char.toNat)[n]? = some c) → hexb c = some n := by
        intro n hn c hc
        have : ∀ n < 16, (("0123456789abcdef".toList.map Char.toNat)[n]?).bind hexb = some n := by decide +kernel
        have := this n hn
        rw [hc] at this; exact this
      exact this n hn c h

theorem decb_iff (c n : Nat) : decb c = some n ↔ DecByte c n := by
  constructor
  · intro h
    have hc : 48 ≤ c ∧ c ≤ 57 := by
      apply Classical.byContradiction; intro hc
      unfold decb at h
      rw [if_neg hc] at h
      exact absurd h (by simp)
    have : n = c - 48 := by
      unfold decb at h; rw [if_pos hc] at h; simpa using h.symm
    subst this
    refine ⟨_, List.mem_singleton.mpr rfl, ?_⟩
    have : ∀ c < 58, 48 ≤ c → ("0123456789".toList.map Char.toNat)[c - 48]? = some c := by decide +kernel
    exact this c (by omega) hc.1
  · rintro ⟨s, hs, h⟩
    rw [List.mem_singleton] at hs
    subst hs
    obtain ⟨hl, _⟩ := List.getElem?_eq_some_iff.mp h
    have : ∀ n < 10, (("0123456789".toList.map Char.toNat)[n]?).bind decb = some n := by decide +kernel
    have := this n hl
    rw [h] at this; exact this

theorem octb_iff (c n : Nat) : octb c = some n ↔ OctByte c n := by
  constructor
  · intro h
    have hc : 48 ≤ c ∧ c ≤ 55 := by
      apply Classical.byContradiction; intro hc
      unfold octb at h
      rw [if_neg hc] at h
      exact absurd h (by simp)
    have : n = c - 48 := by
      unfold octb at h; rw [if_pos hc] at h; simpa using h.symm
    subst this
    refine ⟨_, List.mem_singleton.mpr rfl, ?_⟩
    have : ∀ c < 56, 48 ≤ c → ("01234567".toList.map Char.toNat)[c - 48]? = some c := by decide +kernel
    exact this c (by omega) hc.1
  · rintro ⟨s, hs, h⟩
    rw [List.mem_singleton] at hs
    subst hs
    obtain ⟨hl, _⟩ := List.getElem?_eq_some_iff.mp h
    have : ∀ n < 8, (("01234567".toList.map Char.toNat)[n]?).bind octb = some n := by decide +kernel
    have := this n hl
    rw [h] at this; exact this

theorem hexb_lt {c n : Nat} (h : hexb c = some n) : n < 16 ∧ c ≠ 117 := by
  unfold hexb at h
  split at h
  · simp only [Option.some.injEq] at h; omega
  · split at h
    · simp only [Option.some.injEq] at h; omega
    · split at h
      · simp only [Option.some.injEq] at h; omega
      · simp at h

theorem octb_lt {c n : Nat} (h : octb c = some n) : n < 8 ∧ c ≠ 117 ∧ c ≠ 120 := by
  unfold octb at h
  split at h
  · simp only [Option.some.injEq] at h; omega
  · simp at h

theorem decb_lt {c n : Nat} (h : decb c = some n) : n < 10 ∧ c ≠ 59 ∧ c ≠ 120 := by
  unfold decb at h
  split at h
  · simp only [Option.some.injEq] at h; omega
  · simp at h

theorem hexb_ne {c n : Nat} (h : hexb c = some n) : c ≠ 59 := by
  rintro rfl
  simp [hexb] at h

/-! ## The ESCAPE decoder, completely

`Result bs` is what the decoder makes of the bytes `bs` from the state after a character. -/

/-- Outcome of reading one escape sequence. -/
inductive Got
  /-- complete: bytes used and datum delivered -/
  | datum (used : Nat) (d : List Nat)
  /-- rejected at this byte (counted from 1) -/
  | reject (used : Nat)
  /-- not yet complete -/
  | wait
  deriving DecidableEq

/-- The decoder's answer as seen by the engine. -/
def got {σ : Type} : Fed σ → Option Got
  | .more _ [] => some .wait
  | .ret k _ [d] .nextphase => some (.datum k d)
  | .ret k _ [] .deadend => some (.reject k)
  | _ => none

/-- The private state is back at the beginning when an answer was given. -/
def settled : Fed Priv → Prop
  | .more _ _ => True
  | .ret _ t _ _ => t.status = 0

theorem got_after {σ : Type} (f : Fed σ) : got (Utf8.Fed.after f) = (got f).map fun
    | .datum k d => .datum (k + 1) d | .reject k => .reject (k + 1) | .wait => .wait := by
  cases f with
  | more t out => cases out <;> rfl
  | ret k t out st =>
    cases out with
    | nil => cases st <;> rfl
    | cons d out => cases out with
      | nil => cases st <;> rfl
      | cons _ _ => cases st <;> rfl

theorem settled_after (f : Fed Priv) : settled (Utf8.Fed.after f) ↔ settled f := by cases f <;> rfl

theorem mstep (t : Priv) (d : Nat) : machine.step t d = step t d := rfl

section steps
variable (b0 b1 d : Nat) (r : List Nat)

theorem f21 {h : Nat} (hh : hexb d = some h) (hb : b0 < 16) :
    machine.feed ⟨21, b0, b1⟩ (d :: r) = .ret 1 ⟨0, b0 * 16 + h, b1⟩ [[3, b0 * 16 + h]] .nextphase := by
  have := (hexb_lt hh).1
  refine feed_ret machine r ?_
  rw [mstep]
  simp only [step, hh, Nat.mod_eq_of_lt (show b0 * 16 + h < 256 by omega)]

theorem f21n (hh : hexb d = none) : machine.feed ⟨21, b0, b1⟩ (d :: r) = .ret 1 ⟨0, b0, b1⟩ [] .deadend :=
  feed_ret machine r (by rw [mstep]; simp only [step, hh, dead])

theorem f20 {h : Nat} (hh : hexb d = some h) :
    machine.feed ⟨20, b0, b1⟩ (d :: r) = Utf8.Fed.after (machine.feed ⟨21, h, b1⟩ r) :=
  feed_more machine r (by rw [mstep]; simp only [step, hh])
theorem f20n (hh : hexb d = none) : machine.feed ⟨20, b0, b1⟩ (d :: r) = .ret 1 ⟨0, b0, b1⟩ [] .deadend :=
  feed_ret machine r (by rw [mstep]; simp only [step, hh, dead])

theorem f31 {o : Nat} (hh : octb d = some o) (hb : b0 < 8) :
    machine.feed ⟨31, b0, b1⟩ (d :: r) = Utf8.Fed.after (machine.feed ⟨32, b0 * 8 + o, b1⟩ r) := by
  have := (octb_lt hh).1
  refine feed_more machine r ?_
  rw [mstep]
  simp only [step, hh, Nat.mod_eq_of_lt (show b0 * 8 + o < 256 by omega)]
theorem f31n (hh : octb d = none) : machine.feed ⟨31, b0, b1⟩ (d :: r) = .ret 1 ⟨0, b0, b1⟩ [] .deadend :=
  feed_ret machine r (by rw [mstep]; simp only [step, hh, dead])

theorem f32 {o : Nat} (hh : octb d = some o) :
    machine.feed ⟨32, b0, b1⟩ (d :: r) = if 377 < b0 * 8 + o then .ret 1 ⟨0, b0, b1⟩ [] .deadend
      else .ret 1 ⟨0, (b0 * 8 + o) % 256, b1⟩ [[3, (b0 * 8 + o) % 256]] .nextphase := by
  split
  · rename_i h
    exact feed_ret machine r (by rw [mstep]; simp only [step, hh, dead, if_pos h])
  · rename_i h
    exact feed_ret machine r (by rw [mstep]; simp only [step, hh, if_neg h])
theorem f32n (hh : octb d = none) : machine.feed ⟨32, b0, b1⟩ (d :: r) = .ret 1 ⟨0, b0, b1⟩ [] .deadend :=
  feed_ret machine r (by rw [mstep]; simp only [step, hh, dead])

theorem f40 {h : Nat} (hh : hexb d = some h) :
    machine.feed ⟨40, b0, b1⟩ (d :: r) = Utf8.Fed.after (machine.feed ⟨41, h, b1⟩ r) :=
  feed_more machine r (by rw [mstep]; simp only [step, hh])
theorem f40n (hh : hexb d = none) : machine.feed ⟨40, b0, b1⟩ (d :: r) = .ret 1 ⟨0, b0, b1⟩ [] .deadend :=
  feed_ret machine r (by rw [mstep]; simp only [step, hh, dead])
theorem f41 {h : Nat} (hh : hexb d = some h) (hb : b0 < 16) :
    machine.feed ⟨41, b0, b1⟩ (d :: r) = Utf8.Fed.after (machine.feed ⟨42, b0 * 16 + h, b1⟩ r) := by
  have := (hexb_lt hh).1
  refine feed_more machine r ?_
  rw [mstep]
  simp only [step, hh, Nat.mod_eq_of_lt (show b0 * 16 + h < 256 by omega)]
theorem f41n (hh : hexb d = none) : machine.feed ⟨41, b0, b1⟩ (d :: r) = .ret 1 ⟨0, b0, b1⟩ [] .deadend :=
  feed_ret machine r (by rw [mstep]; simp only [step, hh, dead])
theorem f42 {h : Nat} (hh : hexb d = some h) :
    machine.feed ⟨42, b0, b1⟩ (d :: r) = Utf8.Fed.after (machine.feed ⟨43, b0, h⟩ r) :=
  feed_more machine r (by rw [mstep]; simp only [step, hh])
theorem f42n (hh : hexb d = none) : machine.feed ⟨42, b0, b1⟩ (d :: r) = .ret 1 ⟨0, b0, b1⟩ [] .deadend :=
  feed_ret machine r (by rw [mstep]; simp only [step, hh, dead])
theorem f43 {h : Nat} (hh : hexb d = some h) (hb : b1 < 16) :
    machine.feed ⟨43, b0, b1⟩ (d :: r) =
      .ret 1 ⟨0, b0, b1 * 16 + h⟩ [1 :: [b0, b1 * 16 + h].dropWhile (· == 0)] .nextphase := by
  have := (hexb_lt hh).1
  refine feed_ret machine r ?_
  rw [mstep]
  simp only [step, hh, Nat.mod_eq_of_lt (show b1 * 16 + h < 256 by omega)]
theorem f43n (hh : hexb d = none) : machine.feed ⟨43, b0, b1⟩ (d :: r) = .ret 1 ⟨0, b0, b1⟩ [] .deadend :=
  feed_ret machine r (by rw [mstep]; simp only [step, hh, dead])
end steps

/-- What the decoder accepts: the escapes of the specification and, in octal, values up to 377 (decimal)
taken modulo 256. -/
inductive Accepts : List Nat → List Nat → Prop
  | byte {e v} : ByteEsc e v → Accepts e [3, v]
  | uni {e v} : UniEsc e v → Accepts e (if v = 0 then [1] else uniDatum v)
  | wide {x y z l m n} : OctByte x l → OctByte y m → OctByte z n → 256 ≤ l * 64 + m * 8 + n → l * 64 + m * 8 + n ≤ 377 →
      Accepts (ascii "\\" ++ [x, y, z]) [3, (l * 64 + m * 8 + n) % 256]

/-- Case analysis of the answer over all byte sequences: what is accepted is exactly a prefix from `Accepts`. -/
theorem escape_sound (t : Priv) (ht : t.status = 0) (bs : List Nat) :
    settled (machine.feed t bs) ∧
    ∃ g, got (machine.feed t bs) = some g ∧
      (∀ k d, g = .datum k d → k ≤ bs.length ∧ Accepts (bs.take k) d) := by
  obtain ⟨s, c0, c1⟩ := t
  subst ht
  -- the part after `%u`, `\u`
  have uni : ∀ (p : List Nat), p = ascii "%u" ∨ p = ascii "\\u" → ∀ b0 b1 r, settled (machine.feed ⟨40, b0, b1⟩ r) ∧
      ∃ g, got (machine.feed ⟨40, b0, b1⟩ r) = some g ∧
        (∀ k d, g = .datum k d → k ≤ r.length ∧ Accepts (p ++ r.take k) d) := by
    intro p hp b0 b1 r
    rcases r with _ | ⟨w, r⟩
    · exact ⟨trivial, .wait, rfl, by intros; contradiction⟩
    cases hw : hexb w with
    | none => rw [f40n _ _ _ _ hw]; exact ⟨rfl, .reject 1, rfl, by intros; contradiction⟩
    | some a =>
    rw [f40 _ _ _ _ hw, settled_after, got_after]
    rcases r with _ | ⟨x, r⟩
    · exact ⟨trivial, .wait, rfl, by intros; contradiction⟩
    cases hx : hexb x with
    | none => rw [f41n _ _ _ _ hx]; exact ⟨rfl, .reject 2, rfl, by intros; contradiction⟩
    | some b =>
    rw [f41 _ _ _ _ hx (hexb_lt hw).1, settled_after, got_after]
    rcases r with _ | ⟨y, r⟩
    · exact ⟨trivial, .wait, rfl, by intros; contradiction⟩
    cases hy : hexb y with
    | none => rw [f42n _ _ _ _ hy]; exact ⟨rfl, .reject 3, rfl, by intros; contradiction⟩
    | some c =>
    rw [f42 _ _ _ _ hy, settled_after, got_after]
    rcases r with _ | ⟨z, r⟩
    · exact ⟨trivial, .wait, rfl, by intros; contradiction⟩
    cases hz : hexb z with
    | none => rw [f43n _ _ _ _ hz]; exact ⟨rfl, .reject 4, rfl, by intros; contradiction⟩
    | some d =>
    rw [f43 _ _ _ _ hz (hexb_lt hy).1]
    refine ⟨rfl, .datum 4 _, rfl, ?_⟩
    intro k dd h
    simp only [Got.datum.injEq] at h
    obtain ⟨rfl, rfl⟩ := h
    refine ⟨by simp, ?_⟩
    have ha := (hexb_lt hw).1
    have hb := (hexb_lt hx).1
    have hc := (hexb_lt hy).1
    have hd := (hexb_lt hz).1
    have key : (1 :: [a * 16 + b, c * 16 + d].dropWhile (· == 0)) =
        if a * 4096 + b * 256 + c * 16 + d = 0 then [1] else uniDatum (a * 4096 + b * 256 + c * 16 + d) := by
      split
      · rw [show a = 0 by omega, show b = 0 by omega, show c = 0 by omega, show d = 0 by omega]; rfl
      · rename_i h0
        rw [← datum2 h0 (by omega)]
        unfold Utf16.datum
        rw [show (a * 4096 + b * 256 + c * 16 + d) / 256 = a * 16 + b by omega,
          show (a * 4096 + b * 256 + c * 16 + d) % 256 = c * 16 + d by omega]
    rw [key]
    have hk : (w :: x :: y :: z :: r).take 4 = [w, x, y, z] := rfl
    rw [hk]
    rw [hexb_iff] at hw hx hy hz
    rcases hp with rfl | rfl
    · exact .uni (.pct hw hx hy hz)
    · exact .uni (.bs hw hx hy hz)
  -- the last digit of `%XX`, `\xXX`
  have hex2 : ∀ (p : List Nat), p = ascii "%" ∨ p = ascii "\\x" → ∀ x m b1 r, hexb x = some m →
      settled (machine.feed ⟨21, m, b1⟩ r) ∧ ∃ g, got (machine.feed ⟨21, m, b1⟩ r) = some g ∧
        (∀ k d, g = .datum k d → k ≤ r.length ∧ Accepts (p ++ x :: r.take k) d) := by
    intro p hp x m b1 r hx
    rcases r with _ | ⟨y, r⟩
    · exact ⟨trivial, .wait, rfl, by intros; contradiction⟩
    cases hy : hexb y with
    | none => rw [f21n _ _ _ _ hy]; exact ⟨rfl, .reject 1, rfl, by intros; contradiction⟩
    | some n =>
    rw [f21 _ _ _ _ hy (hexb_lt hx).1]
    refine ⟨rfl, .datum 1 _, rfl, ?_⟩
    intro k dd h
    simp only [Got.datum.injEq] at h
    obtain ⟨rfl, rfl⟩ := h
    rw [hexb_iff] at hx hy
    refine ⟨by simp, ?_⟩
    rcases hp with rfl | rfl
    · exact .byte (.pct hx hy)
    · exact .byte (.hex hx hy)
  rcases bs with _ | ⟨d, bs⟩
  · exact ⟨trivial, .wait, rfl, by intros; contradiction⟩
  by_cases h37 : d = 37
  · subst h37
    rw [show machine.feed ⟨0, c0, c1⟩ (37 :: bs) = Utf8.Fed.after (machine.feed ⟨10, c0, c1⟩ bs) from
      feed_more machine _ rfl, settled_after, got_after]
    rcases bs with _ | ⟨x, bs⟩
    · exact ⟨trivial, .wait, rfl, by intros; contradiction⟩
    by_cases hu : x = 117
    · subst hu
      rw [show machine.feed ⟨10, c0, c1⟩ (117 :: bs) = Utf8.Fed.after (machine.feed ⟨40, c0, c1⟩ bs) from
        feed_more machine _ rfl, settled_after, got_after]
      obtain ⟨hs, g, hg, hacc⟩ := uni _ (.inl rfl) c0 c1 bs
      refine ⟨hs, _, by rw [hg]; rfl, ?_⟩
      intro k d h
      cases g with
      | datum k' d' =>
        simp only [Got.datum.injEq] at h
        obtain ⟨rfl, rfl⟩ := h
        obtain ⟨h1, h2⟩ := hacc _ _ rfl
        exact ⟨by simp; omega, h2⟩
      | reject _ => simp at h
      | wait => simp at h
    · cases hx : hexb x with
      | none =>
        rw [show machine.feed ⟨10, c0, c1⟩ (x :: bs) = .ret 1 ⟨0, c0, c1⟩ [] .deadend from
          feed_ret machine _ (by rw [mstep]; simp only [step, hx, dead, if_neg hu])]
        exact ⟨rfl, .reject 2, rfl, by intros; contradiction⟩
      | some m =>
        rw [show machine.feed ⟨10, c0, c1⟩ (x :: bs) = Utf8.Fed.after (machine.feed ⟨21, m, c1⟩ bs) from
          feed_more machine _ (by rw [mstep]; simp only [step, hx, if_neg hu]), settled_after, got_after]
        obtain ⟨hs, g, hg, hacc⟩ := hex2 _ (.inl rfl) x m c1 bs hx
        refine ⟨hs, _, by rw [hg]; rfl, ?_⟩
        intro k d h
        cases g with
        | datum k' d' =>
          simp only [Got.datum.injEq] at h
          obtain ⟨rfl, rfl⟩ := h
          obtain ⟨h1, h2⟩ := hacc _ _ rfl
          exact ⟨by simp; omega, h2⟩
        | reject _ => simp at h
        | wait => simp at h
  by_cases h92 : d = 92
  · subst h92
    rw [show machine.feed ⟨0, c0, c1⟩ (92 :: bs) = Utf8.Fed.after (machine.feed ⟨11, c0, c1⟩ bs) from
      feed_more machine _ rfl, settled_after, got_after]
    rcases bs with _ | ⟨x, bs⟩
    · exact ⟨trivial, .wait, rfl, by intros; contradiction⟩
    by_cases hu : x = 117
    · subst hu
      rw [show machine.feed ⟨11, c0, c1⟩ (117 :: bs) = Utf8.Fed.after (machine.feed ⟨40, c0, c1⟩ bs) from
        feed_more machine _ rfl, settled_after, got_after]
      obtain ⟨hs, g, hg, hacc⟩ := uni _ (.inr rfl) c0 c1 bs
      refine ⟨hs, _, by rw [hg]; rfl, ?_⟩
      intro k d h
      cases g with
      | datum k' d' =>
        simp only [Got.datum.injEq] at h
        obtain ⟨rfl, rfl⟩ := h
        obtain ⟨h1, h2⟩ := hacc _ _ rfl
        exact ⟨by simp; omega, h2⟩
      | reject _ => simp at h
      | wait => simp at h
    by_cases hxx : x = 120
    · subst hxx
      rw [show machine.feed ⟨11, c0, c1⟩ (120 :: bs) = Utf8.Fed.after (machine.feed ⟨20, c0, c1⟩ bs) from
        feed_more machine _ rfl, settled_after, got_after]
      rcases bs with _ | ⟨x, bs⟩
      · exact ⟨trivial, .wait, rfl, by intros; contradiction⟩
      cases hx : hexb x with
      | none => rw [f20n _ _ _ _ hx]; exact ⟨rfl, .reject 3, rfl, by intros; contradiction⟩
      | some m =>
        rw [f20 _ _ _ _ hx, settled_after, got_after]
        obtain ⟨hs, g, hg, hacc⟩ := hex2 _ (.inr rfl) x m c1 bs hx
        refine ⟨hs, _, by rw [hg]; rfl, ?_⟩
        intro k d h
        cases g with
        | datum k' d' =>
          simp only [Got.datum.injEq] at h
          obtain ⟨rfl, rfl⟩ := h
          obtain ⟨h1, h2⟩ := hacc _ _ rfl
          exact ⟨by simp; omega, h2⟩
        | reject _ => simp at h
        | wait => simp at h
    cases hx : octb x with
    | none =>
      rw [show machine.feed ⟨11, c0, c1⟩ (x :: bs) = .ret 1 ⟨0, c0, c1⟩ [] .deadend from
        feed_ret machine _ (by rw [mstep]; simp only [step, hx, dead, if_neg hu, if_neg hxx])]
      exact ⟨rfl, .reject 2, rfl, by intros; contradiction⟩
    | some l =>
      rw [show machine.feed ⟨11, c0, c1⟩ (x :: bs) = Utf8.Fed.after (machine.feed ⟨31, l, c1⟩ bs) from
        feed_more machine _ (by rw [mstep]; simp only [step, hx, if_neg hu, if_neg hxx]), settled_after, got_after]
      rcases bs with _ | ⟨y, bs⟩
      · exact ⟨trivial, .wait, rfl, by intros; contradiction⟩
      cases hy : octb y with
      | none => rw [f31n _ _ _ _ hy]; exact ⟨rfl, .reject 3, rfl, by intros; contradiction⟩
      | some m =>
      rw [f31 _ _ _ _ hy (octb_lt hx).1, settled_after, got_after]
      rcases bs with _ | ⟨z, bs⟩
      · exact ⟨trivial, .wait, rfl, by intros; contradiction⟩
      cases hz : octb z with
      | none => rw [f32n _ _ _ _ hz]; exact ⟨rfl, .reject 4, rfl, by intros; contradiction⟩
      | some n =>
      rw [f32 _ _ _ _ hz]
      have hl := (octb_lt hx).1
      have hm := (octb_lt hy).1
      have hn := (octb_lt hz).1
      rw [octb_iff] at hx hy hz
      rw [show (l * 8 + m) * 8 + n = l * 64 + m * 8 + n by omega]
      split
      · exact ⟨rfl, .reject 4, rfl, by intros; contradiction⟩
      · refine ⟨rfl, .datum 4 _, rfl, ?_⟩
        intro k dd h
        simp only [Got.datum.injEq] at h
        obtain ⟨rfl, rfl⟩ := h
        refine ⟨by simp, ?_⟩
        by_cases hv : l * 64 + m * 8 + n < 256
        · rw [Nat.mod_eq_of_lt hv]; exact .byte (.oct hx hy hz hv)
        · exact .wide hx hy hz (by omega) (by omega)
  · rw [show machine.feed ⟨0, c0, c1⟩ (d :: bs) = .ret 1 ⟨0, c0, c1⟩ [] .deadend from
      feed_ret machine _ (by rw [mstep]; simp only [step, dead, if_neg h37, if_neg h92])]
    exact ⟨rfl, .reject 1, rfl, by intros; contradiction⟩

/-- Every accepted sequence is decoded, whatever follows. -/
theorem escape_complete (t : Priv) (ht : t.status = 0) {e d : List Nat} (h : Accepts e d) (r : List Nat) :
    got (machine.feed t (e ++ r)) = some (.datum e.length d) := by
  obtain ⟨s, c0, c1⟩ := t
  subst ht
  have uni : ∀ {w x y z a b c d : Nat}, HexByte w a → HexByte x b → HexByte y c → HexByte z d →
      got (machine.feed ⟨40, c0, c1⟩ (w :: x :: y :: z :: r)) = some (.datum 4
        (if a * 4096 + b * 256 + c * 16 + d = 0 then [1] else uniDatum (a * 4096 + b * 256 + c * 16 + d))) := by
    intro w x y z a b c d hw hx hy hz
    rw [← hexb_iff] at hw hx hy hz
    rw [f40 _ _ _ _ hw, f41 _ _ _ _ hx (hexb_lt hw).1, f42 _ _ _ _ hy, f43 _ _ _ _ hz (hexb_lt hy).1]
    have ha := (hexb_lt hw).1
    have hb := (hexb_lt hx).1
    have hc := (hexb_lt hy).1
    have hd := (hexb_lt hz).1
    have key : (1 :: [a * 16 + b, c * 16 + d].dropWhile (· == 0)) =
        if a * 4096 + b * 256 + c * 16 + d = 0 then [1] else uniDatum (a * 4096 + b * 256 + c * 16 + d) := by
      split
      · rw [show a = 0 by omega, show b = 0 by omega, show c = 0 by omega, show d = 0 by omega]; rfl
      · rename_i h0
        rw [← datum2 h0 (by omega)]
        unfold Utf16.datum
        rw [show (a * 4096 + b * 256 + c * 16 + d) / 256 = a * 16 + b by omega,
          show (a * 4096 + b * 256 + c * 16 + d) % 256 = c * 16 + d by omega]
    rw [key]; rfl
  have octs : ∀ {x y z l m n : Nat}, OctByte x l → OctByte y m → OctByte z n → l * 64 + m * 8 + n ≤ 377 →
      got (machine.feed ⟨0, c0, c1⟩ (92 :: x :: y :: z :: r)) = some (.datum 4 [3, (l * 64 + m * 8 + n) % 256]) := by
    intro x y z l m n hx hy hz hv
    rw [← octb_iff] at hx hy hz
    rw [show machine.feed ⟨0, c0, c1⟩ (92 :: x :: y :: z :: r) =
        Utf8.Fed.after (machine.feed ⟨11, c0, c1⟩ (x :: y :: z :: r)) from feed_more machine _ rfl,
      show machine.feed ⟨11, c0, c1⟩ (x :: y :: z :: r) = Utf8.Fed.after (machine.feed ⟨31, l, c1⟩ (y :: z :: r)) from
        feed_more machine _ (by rw [mstep]; simp only [step, hx, if_neg (octb_lt hx).2.1, if_neg (octb_lt hx).2.2]),
      f31 _ _ _ _ hy (octb_lt hx).1, f32 _ _ _ _ hz, show (l * 8 + m) * 8 + n = l * 64 + m * 8 + n by omega,
      if_neg (by omega)]
    rfl
  cases h with
  | byte h =>
    cases h with
    | @pct x y m n hx hy =>
      rw [← hexb_iff] at hx hy
      show got (machine.feed ⟨0, c0, c1⟩ (37 :: x :: y :: r)) = _
      rw [show machine.feed ⟨0, c0, c1⟩ (37 :: x :: y :: r) =
          Utf8.Fed.after (machine.feed ⟨10, c0, c1⟩ (x :: y :: r)) from feed_more machine _ rfl,
        show machine.feed ⟨10, c0, c1⟩ (x :: y :: r) = Utf8.Fed.after (machine.feed ⟨21, m, c1⟩ (y :: r)) from
          feed_more machine _ (by rw [mstep]; simp only [step, hx, if_neg (hexb_lt hx).2]),
        f21 _ _ _ _ hy (hexb_lt hx).1]
      rfl
    | @hex x y m n hx hy =>
      rw [← hexb_iff] at hx hy
      show got (machine.feed ⟨0, c0, c1⟩ (92 :: 120 :: x :: y :: r)) = _
      rw [show machine.feed ⟨0, c0, c1⟩ (92 :: 120 :: x :: y :: r) =
          Utf8.Fed.after (machine.feed ⟨11, c0, c1⟩ (120 :: x :: y :: r)) from feed_more machine _ rfl,
        show machine.feed ⟨11, c0, c1⟩ (120 :: x :: y :: r) = Utf8.Fed.after (machine.feed ⟨20, c0, c1⟩ (x :: y :: r)) from
          feed_more machine _ rfl,
        f20 _ _ _ _ hx, f21 _ _ _ _ hy (hexb_lt hx).1]
      rfl
    | oct hx hy hz hv =>
      have := octs hx hy hz (by omega)
      rw [Nat.mod_eq_of_lt hv] at this
      exact this
  | uni h =>
    cases h with
    | @pct w x y z a b c d hw hx hy hz =>
      show got (machine.feed ⟨0, c0, c1⟩ (37 :: 117 :: w :: x :: y :: z :: r)) = _
      rw [show machine.feed ⟨0, c0, c1⟩ (37 :: 117 :: w :: x :: y :: z :: r) =
          Utf8.Fed.after (machine.feed ⟨10, c0, c1⟩ (117 :: w :: x :: y :: z :: r)) from feed_more machine _ rfl,
        show machine.feed ⟨10, c0, c1⟩ (117 :: w :: x :: y :: z :: r) =
          Utf8.Fed.after (machine.feed ⟨40, c0, c1⟩ (w :: x :: y :: z :: r)) from feed_more machine _ rfl,
        got_after, got_after, uni hw hx hy hz]
      rfl
    | @bs w x y z a b c d hw hx hy hz =>
      show got (machine.feed ⟨0, c0, c1⟩ (92 :: 117 :: w :: x :: y :: z :: r)) = _
      rw [show machine.feed ⟨0, c0, c1⟩ (92 :: 117 :: w :: x :: y :: z :: r) =
          Utf8.Fed.after (machine.feed ⟨11, c0, c1⟩ (117 :: w :: x :: y :: z :: r)) from feed_more machine _ rfl,
        show machine.feed ⟨11, c0, c1⟩ (117 :: w :: x :: y :: z :: r) =
          Utf8.Fed.after (machine.feed ⟨40, c0, c1⟩ (w :: x :: y :: z :: r)) from feed_more machine _ rfl,
        got_after, got_after, uni hw hx hy hz]
      rfl
  | wide hx hy hz h1 h2 => exact octs hx hy hz h2

/-! ## C22 -/

/-- Every byte escape `%XX`, `\xXX`, `\ooo` (value below 256) decodes to its byte, whatever comes after it, and leaves
the decoder ready for the next one. -/
theorem C22_decode (t : Priv) (ht : t.status = 0) {e : List Nat} {v : Nat} (h : ByteEsc e v) (r : List Nat) :
    ∃ t', t'.status = 0 ∧ machine.feed t (e ++ r) = .ret e.length t' [[3, v]] .nextphase := by
  have h1 := escape_complete t ht (.byte h) r
  have h2 := (escape_sound t ht (e ++ r)).1
  cases hf : machine.feed t (e ++ r) with
  | more t' out => rw [hf] at h1; cases out <;> simp [got] at h1
  | ret k t' out st =>
    rw [hf] at h1 h2
    unfold got at h1
    split at h1 <;> simp_all [settled]

example : ByteEsc (ascii "%e9") 0xE9 ∧ ByteEsc (ascii "\\xFF") 255 ∧ ByteEsc (ascii "\\377") 255 := by
  refine ⟨?_, ?_, ?_⟩
  · exact .pct (m := 14) (n := 9) (x := 101) (y := 57) ((hexb_iff _ _).mp rfl) ((hexb_iff _ _).mp rfl)
  · exact .hex (m := 15) (n := 15) (x := 70) (y := 70) ((hexb_iff _ _).mp rfl) ((hexb_iff _ _).mp rfl)
  · exact .oct (l := 3) (m := 7) (n := 7) (x := 51) (y := 55) (z := 55) ((octb_iff _ _).mp rfl) ((octb_iff _ _).mp rfl)
      ((octb_iff _ _).mp rfl) (by omega)

/-- Conversely, whatever the decoder accepts as a byte is a byte escape of that byte, or an octal escape with a
value from 256 to 377 — the part of the range check that is missing, because the code compares with decimal 377. -/
theorem C22_only_partial (t : Priv) (ht : t.status = 0) (bs : List Nat) {k : Nat} {t' : Priv} {v : Nat}
    (h : machine.feed t bs = .ret k t' [[3, v]] .nextphase) :
    k ≤ bs.length ∧ (ByteEsc (bs.take k) v ∨ ∃ x y z l m n, bs.take k = ascii "\\" ++ [x, y, z] ∧
      OctByte x l ∧ OctByte y m ∧ OctByte z n ∧ 256 ≤ l * 64 + m * 8 + n ∧ l * 64 + m * 8 + n ≤ 377 ∧
      v = (l * 64 + m * 8 + n) % 256) := by
  obtain ⟨-, g, hg, hacc⟩ := escape_sound t ht bs
  rw [h] at hg
  simp only [got, Option.some.injEq] at hg
  obtain ⟨h1, h2⟩ := hacc _ _ hg.symm
  refine ⟨h1, ?_⟩
  generalize bs.take k = e at h2
  generalize hd : [3, v] = d at h2
  cases h2 with
  | byte h => simp only [List.cons.injEq, and_true, true_and] at hd; subst hd; exact .inl h
  | uni h =>
    exfalso
    split at hd
    · simp at hd
    · simp [uniDatum] at hd
  | wide hx hy hz h1 h2 =>
    simp only [List.cons.injEq, and_true, true_and] at hd
    exact .inr ⟨_, _, _, _, _, _, rfl, hx, hy, hz, h1, h2, hd⟩

/-- Octal escapes above 377 (decimal) are rejected at their last digit. -/
theorem C22_reject_partial (t : Priv) (ht : t.status = 0) {x y z l m n : Nat} (hx : OctByte x l) (hy : OctByte y m)
    (hz : OctByte z n) (hv : 377 < l * 64 + m * 8 + n) (r : List Nat) :
    ∃ t', t'.status = 0 ∧ machine.feed t (ascii "\\" ++ [x, y, z] ++ r) = .ret 4 t' [] .deadend := by
  obtain ⟨s, c0, c1⟩ := t
  subst ht
  rw [← octb_iff] at hx hy hz
  refine ⟨⟨0, l * 8 + m, c1⟩, rfl, ?_⟩
  show machine.feed ⟨0, c0, c1⟩ (92 :: x :: y :: z :: r) = _
  rw [show machine.feed ⟨0, c0, c1⟩ (92 :: x :: y :: z :: r) =
      Utf8.Fed.after (machine.feed ⟨11, c0, c1⟩ (x :: y :: z :: r)) from feed_more machine _ rfl,
    show machine.feed ⟨11, c0, c1⟩ (x :: y :: z :: r) = Utf8.Fed.after (machine.feed ⟨31, l, c1⟩ (y :: z :: r)) from
      feed_more machine _ (by rw [mstep]; simp only [step, hx, if_neg (octb_lt hx).2.1, if_neg (octb_lt hx).2.2]),
    f31 _ _ _ _ hy (octb_lt hx).1, f32 _ _ _ _ hz, show (l * 8 + m) * 8 + n = l * 64 + m * 8 + n by omega,
    if_pos hv]
  rfl

/-- The claim "an octal escape above `\377` is rejected" is false: `\400` decodes to byte 0, `\501` to `A`. -/
theorem C22_octal_violated (c0 c1 : Nat) :
    machine.feed ⟨0, c0, c1⟩ (ascii "\\400") = .ret 4 ⟨0, 0, c1⟩ [[3, 0]] .nextphase ∧
    machine.feed ⟨0, c0, c1⟩ (ascii "\\501") = .ret 4 ⟨0, 65, c1⟩ [[3, 65]] .nextphase := by
  constructor <;> simp [ascii, Machine.feed, mstep, step, octb]

theorem hexDigit_ok {n : Nat} (h : n < 16) : HexByte (hexDigit n) n := by
  rw [← hexb_iff]; revert n; decide +kernel
theorem octDigit_ok {n : Nat} (h : n < 8) : OctByte (n + 48) n := by
  rw [← octb_iff]; revert n; decide +kernel

/-- The encoder's three byte styles that the decoder reads: `PREFIX=%` or `\x` with `MODE=HEX`, `\` with `MODE=OCT`. -/
def byteStyles : List Opts :=
  [⟨ascii "%", [], .byte, .hex⟩, ⟨ascii "\\x", [], .byte, .hex⟩, ⟨ascii "\\", [], .byte, .oct⟩]

/-- Encoding any byte in one of these styles and decoding the text gives the byte back. -/
theorem C22_roundtrip (o : Opts) (ho : o ∈ byteStyles) (b : Nat) (hb : b < 256) (t : Priv) (ht : t.status = 0)
    (r : List Nat) : ∃ e t', encode o [3, b] = some [e] ∧ ByteEsc e b ∧ t'.status = 0 ∧
      machine.feed t (e ++ r) = .ret e.length t' [[3, b]] .nextphase := by
  have : ∃ e, encode o [3, b] = some [e] ∧ ByteEsc e b := by
    simp only [byteStyles, List.mem_cons, List.not_mem_nil, or_false] at ho
    rcases ho with rfl | rfl | rfl
    · refine ⟨_, rfl, ?_⟩
      rw [List.append_nil]
      have := ByteEsc.pct (hexDigit_ok (n := b / 16 % 16) (by omega)) (hexDigit_ok (n := b % 16) (by omega))
      rwa [show b / 16 % 16 * 16 + b % 16 = b by omega] at this
    · refine ⟨_, rfl, ?_⟩
      rw [List.append_nil]
      have := ByteEsc.hex (hexDigit_ok (n := b / 16 % 16) (by omega)) (hexDigit_ok (n := b % 16) (by omega))
      rwa [show b / 16 % 16 * 16 + b % 16 = b by omega] at this
    · refine ⟨_, rfl, ?_⟩
      rw [List.append_nil]
      have := ByteEsc.oct (octDigit_ok (n := b / 8 / 8) (by omega)) (octDigit_ok (n := b / 8 % 8) (by omega))
        (octDigit_ok (n := b % 8) (by omega)) (by omega)
      rwa [show b / 8 / 8 * 64 + b / 8 % 8 * 8 + b % 8 = b by omega] at this
  obtain ⟨e, he, hB⟩ := this
  obtain ⟨t', h1, h2⟩ := C22_decode t ht hB r
  exact ⟨e, t', he, hB, h1, h2⟩

example : (⟨ascii "\\", [], .byte, .oct⟩ : Opts) ∈ byteStyles ∧
    encode ⟨ascii "\\", [], .byte, .oct⟩ [3, 255] = some [ascii "\\377"] := by
  refine ⟨by simp [byteStyles], by decide +kernel⟩

/-! ## C23 -/

/-- Every `%uXXXX` or `\uXXXX` of a non-zero value decodes to its code point. -/
theorem C23_decode (t : Priv) (ht : t.status = 0) {e : List Nat} {v : Nat} (h : UniEsc e v) (h0 : v ≠ 0) (r : List Nat) :
    ∃ t', t'.status = 0 ∧ machine.feed t (e ++ r) = .ret e.length t' [uniDatum v] .nextphase := by
  have h1 := escape_complete t ht (.uni h) r
  have h2 := (escape_sound t ht (e ++ r)).1
  rw [if_neg h0] at h1
  cases hf : machine.feed t (e ++ r) with
  | more t' out => rw [hf] at h1; cases out <;> simp [got] at h1
  | ret k t' out st =>
    rw [hf] at h1 h2
    unfold got at h1
    split at h1 <;> simp_all [settled]

example : UniEsc (ascii "%u20aC") 0x20AC := by
  have := UniEsc.pct (w := 50) (x := 48) (y := 97) (z := 67) (a := 2) (b := 0) (c := 10) (d := 12)
    ((hexb_iff _ _).mp rfl) ((hexb_iff _ _).mp rfl) ((hexb_iff _ _).mp rfl) ((hexb_iff _ _).mp rfl)
  exact this

/-- Whatever is accepted as a character is a `%u`/`\u` escape of it. -/
theorem C23_only (t : Priv) (ht : t.status = 0) (bs : List Nat) {k : Nat} {t' : Priv} {v : Nat}
    (h : machine.feed t bs = .ret k t' [uniDatum v] .nextphase) : k ≤ bs.length ∧ ∃ u, UniEsc (bs.take k) u ∧ uniDatum u = uniDatum v := by
  obtain ⟨-, g, hg, hacc⟩ := escape_sound t ht bs
  rw [h] at hg
  simp only [got, Option.some.injEq] at hg
  obtain ⟨h1, h2⟩ := hacc _ _ hg.symm
  refine ⟨h1, ?_⟩
  generalize bs.take k = e at h2
  have hne : uniDatum v ≠ [1] := by
    unfold uniDatum
    intro h
    simp only [List.cons.injEq, true_and] at h
    rw [beBytes] at h
    split at h <;> simp at h
  generalize hd : uniDatum v = d at h2 hne
  cases h2 with
  | byte h => simp [uniDatum] at hd
  | uni h =>
    split at hd
    · exact absurd (by simp_all) hne
    · exact ⟨_, h, by simp_all⟩
  | wide hx hy hz h1 h2 => simp [uniDatum] at hd

/-- The round trip, for the code points it holds for: U+0100 to U+FFFF, with the default options or `PREFIX=\u`. -/
theorem C23_roundtrip_partial (cp : Nat) (h1 : 0x100 ≤ cp) (h2 : cp ≤ 0xFFFF) (pre : List Nat)
    (hp : pre = ascii "%u" ∨ pre = ascii "\\u") (t : Priv) (ht : t.status = 0) (r : List Nat) :
    ∃ e t', encode { pre := pre } (uniDatum cp) = some [e] ∧ t'.status = 0 ∧
      machine.feed t (e ++ r) = .ret e.length t' [uniDatum cp] .nextphase := by
  have : encode { pre := pre } (uniDatum cp) = some [pre ++ (hex2 (cp / 256) ++ hex2 (cp % 256))] := by
    unfold uniDatum encode
    rw [be2 h1 (by omega)]
    simp
  rw [this]
  have hu : UniEsc (pre ++ (hex2 (cp / 256) ++ hex2 (cp % 256))) cp := by
    have hw := hexDigit_ok (n := cp / 256 / 16 % 16) (by omega)
    have hx := hexDigit_ok (n := cp / 256 % 16) (by omega)
    have hy := hexDigit_ok (n := cp % 256 / 16 % 16) (by omega)
    have hz := hexDigit_ok (n := cp % 256 % 16) (by omega)
    have hs : cp / 256 / 16 % 16 * 4096 + cp / 256 % 16 * 256 + cp % 256 / 16 % 16 * 16 + cp % 256 % 16 = cp := by omega
    rcases hp with rfl | rfl
    · have := UniEsc.pct hw hx hy hz
      rw [hs] at this; exact this
    · have := UniEsc.bs hw hx hy hz
      rw [hs] at this; exact this
  obtain ⟨t', h3, h4⟩ := C23_decode t ht hu (by omega) r
  exact ⟨_, t', rfl, h3, h4⟩

/-- Below U+0100 and above U+FFFF the round trip fails: `A` is written `%u41`, which the decoder does not accept even
with more text after it; U+1F600 is written `%u01F600`, which decodes to U+01F6 with `00` left over. -/
theorem C23_roundtrip_violated (c0 c1 : Nat) :
    encode {} (uniDatum 0x41) = some [ascii "%u41"] ∧
    machine.feed ⟨0, c0, c1⟩ (ascii "%u41") = .more ⟨42, 0x41, c1⟩ [] ∧
    machine.feed ⟨0, c0, c1⟩ (ascii "%u41%u42") = .ret 5 ⟨0, 0x41, c1⟩ [] .deadend ∧
    encode {} (uniDatum 0x1F600) = some [ascii "%u01F600"] ∧
    machine.feed ⟨0, c0, c1⟩ (ascii "%u01F600") = .ret 6 ⟨0, 0x01, 0xF6⟩ [uniDatum 0x1F6] .nextphase := by
  have e1 : uniDatum 0x41 = [1, 0x41] := by unfold uniDatum; rw [be1 (by omega)]
  have e2 : uniDatum 0x1F600 = [1, 0x01, 0xF6, 0x00] := by unfold uniDatum; rw [be3 (by omega) (by omega)]
  have e3 : uniDatum 0x1F6 = [1, 0x01, 0xF6] := by unfold uniDatum; rw [be2 (by omega) (by omega)]
  rw [e1, e2, e3]
  refine ⟨by decide +kernel, rfl, rfl, by decide +kernel, rfl⟩

/-! ## C24 -/

theorem ent_bytes {v : Nat} (h : v < 2 ^ 32) : 1 :: entBytes v = if v = 0 then [1] else uniDatum v := by
  split
  · rename_i h; subst h; rfl
  · rename_i h0
    rw [← datum4 h0 h]
    unfold entBytes Utf16.datum utf32be
    rw [Nat.mod_eq_of_lt (show v / 0x1000000 < 256 by omega)]

theorem emstep (t : EPriv) (d : Nat) : emachine.step t d = estep t d := rfl

/-- The table of digits for the chosen base. -/
def Digit (hex : Bool) : Nat → Nat → Prop := if hex then HexByte else DecByte

theorem etbl_iff (hex : Bool) (c n : Nat) : etbl hex c = some n ↔ Digit hex c n := by
  cases hex
  · exact decb_iff c n
  · exact hexb_iff c n

theorem etbl_ne {hex : Bool} {c n : Nat} (h : etbl hex c = some n) : c ≠ 59 := by
  cases hex
  · exact (decb_lt h).2.1
  · exact hexb_ne h

/-- A run of digits, read from a state inside an entity. -/
inductive Digits (hex : Bool) : List Nat → Nat → Nat → Prop
  | nil (v) : Digits hex [] v v
  | cons {c n cs v w} : Digit hex c n → Digits hex cs (v * ebase hex + n) w → Digits hex (c :: cs) v w

theorem digits_snoc {hex : Bool} {cs : List Nat} {v w c n : Nat} (h : Digits hex cs v w) (hc : Digit hex c n) :
    Digits hex (cs ++ [c]) v (w * ebase hex + n) := by
  induction h with
  | nil v => exact .cons hc (.nil _)
  | cons h1 _ ih => exact .cons h1 ih

theorem numeral_digits {hex : Bool} {ds : List Nat} {v : Nat} (h : Numeral (Digit hex) (ebase hex) ds v) :
    ∃ c n cs, ds = c :: cs ∧ Digit hex c n ∧ Digits hex cs n v := by
  induction h with
  | one h => exact ⟨_, _, [], rfl, h, .nil _⟩
  | @snoc cs v c n _ hc ih =>
    obtain ⟨c', n', cs', rfl, h1, h2⟩ := ih
    exact ⟨c', n', cs' ++ [c], rfl, h1, digits_snoc h2 hc⟩

theorem digits_numeral {hex : Bool} {cs : List Nat} {v w : Nat} (h : Digits hex cs v w) :
    ∀ ds, Numeral (Digit hex) (ebase hex) ds v → Numeral (Digit hex) (ebase hex) (ds ++ cs) w := by
  induction h with
  | nil v => intro ds h; simpa using h
  | @cons c n cs v w h1 _ ih =>
    intro ds h
    have := ih _ (.snoc h h1)
    simpa using this

/-- The loop over digits. -/
theorem feed_digits {hex : Bool} {cs : List Nat} {v w : Nat} (h : Digits hex cs v w) (s : Nat) (hs : s ≠ 0) (r : List Nat)
    {k : Nat} {t' : EPriv} {out : List Engine.Datum} {st : Status}
    (hr : emachine.feed ⟨s + cs.length, hex, w % 2 ^ 32⟩ r = .ret k t' out st) :
    emachine.feed ⟨s, hex, v % 2 ^ 32⟩ (cs ++ r) = .ret (k + cs.length) t' out st := by
  induction h generalizing s with
  | nil v => exact hr
  | @cons c n cs v w h1 _ ih =>
    rw [← etbl_iff] at h1
    have := ih (s + 1) (by omega) (by rw [show s + 1 + cs.length = s + (c :: cs).length by simp; omega]; exact hr)
    rw [List.cons_append, feed_more emachine (t' := ⟨s + 1, hex, (v * ebase hex + n) % 2 ^ 32⟩), this]
    · simp [Utf8.Fed.after]; omega
    · rw [emstep]
      unfold estep
      rw [if_neg (by simp [etbl_ne h1]), if_pos hs]
      simp only [h1]
      rw [Nat.add_mod, Nat.mul_mod, Nat.mod_mod, ← Nat.mul_mod, ← Nat.add_mod]

theorem num_mod_self (hex : Bool) {n : Nat} {c : Nat} (h : Digit hex c n) : n % 2 ^ 32 = n := by
  rw [← etbl_iff] at h
  cases hex
  · have := (decb_lt h).1; exact Nat.mod_eq_of_lt (by omega)
  · have := (hexb_lt h).1; exact Nat.mod_eq_of_lt (by omega)

/-- The answer at the end of an entity whose body denotes `v`: the datum of `v` modulo 2^32. -/
theorem entity_feed (t : EPriv) (ht : t.status = 0) {b : List Nat} {v : Nat} (h : EntityBody b v) (r : List Nat) :
    ∃ t', t'.status = 0 ∧ emachine.feed t (b ++ ascii ";" ++ r) =
      .ret (b.length + 1) t' [if v % 2 ^ 32 = 0 then [1] else uniDatum (v % 2 ^ 32)] .nextphase := by
  obtain ⟨s, hx, val⟩ := t
  simp only at ht
  subst ht
  have fin : ∀ s hex, s ≠ 0 → emachine.feed ⟨s, hex, v % 2 ^ 32⟩ (59 :: r) = .ret 1 ⟨0, hex, v % 2 ^ 32⟩
      [if v % 2 ^ 32 = 0 then [1] else uniDatum (v % 2 ^ 32)] .nextphase := by
    intro s hex hs
    rw [← ent_bytes (Nat.mod_lt _ (by omega))]
    refine feed_ret emachine r ?_
    rw [emstep]
    unfold estep
    rw [if_pos ⟨rfl, hs⟩]
  cases h with
  | dec h =>
    obtain ⟨c, n, cs, rfl, h1, h2⟩ := numeral_digits (hex := false) h
    refine ⟨⟨0, false, v % 2 ^ 32⟩, rfl, ?_⟩
    show emachine.feed _ (((c :: cs) ++ [59]) ++ r) = _
    have := feed_digits h2 1 (by omega) (59 :: r) (fin (1 + cs.length) false (by omega))
    rw [num_mod_self false h1] at this
    rw [← etbl_iff] at h1
    have hd : decb c = some n := h1
    rw [List.append_assoc, List.cons_append, feed_more emachine (t' := ⟨1, false, n⟩)]
    · rw [List.singleton_append, this]
      simp [Utf8.Fed.after]; omega
    · rw [emstep]
      unfold estep
      rw [if_neg (by simp), if_neg (by simp), if_neg (decb_lt hd).2.2]
      simp only [hd]
  | hex h =>
    obtain ⟨c, n, cs, rfl, h1, h2⟩ := numeral_digits (hex := true) h
    refine ⟨⟨0, true, v % 2 ^ 32⟩, rfl, ?_⟩
    have hds : Digits true (c :: cs) 0 v := .cons h1 (by simpa [ebase] using h2)
    have := feed_digits hds 1000 (by omega) (59 :: r) (fin (1000 + (c :: cs).length) true (by omega))
    show emachine.feed _ (120 :: (((c :: cs) ++ [59]) ++ r)) = _
    rw [feed_more emachine (t' := ⟨1000, true, 0⟩) _ rfl, List.append_assoc, List.singleton_append, this]
    simp [Utf8.Fed.after, ascii]; omega

/-- A numeric entity `&#…;` with value from 1 to 2^32-1 decodes to the datum of its value.  (The two bytes `&#` are
matched by the table before the callback is entered.) -/
theorem C24_decode_partial (t : EPriv) (ht : t.status = 0) {b : List Nat} {v : Nat} (h : EntityBody b v)
    (h0 : v ≠ 0) (hv : v < 2 ^ 32) (r : List Nat) :
    ∃ t', t'.status = 0 ∧ emachine.feed t (b ++ ascii ";" ++ r) = .ret (b.length + 1) t' [uniDatum v] .nextphase := by
  obtain ⟨t', h1, h2⟩ := entity_feed t ht h r
  rw [Nat.mod_eq_of_lt hv, if_neg h0] at h2
  exact ⟨t', h1, h2⟩

example : EntityBody (ascii "x41") 0x41 ∧ EntityBody (ascii "65") 65 := by
  constructor
  · exact .hex (ds := [52, 49]) (.snoc (.one (n := 4) ((hexb_iff _ _).mp rfl)) (c := 49) (n := 1) ((hexb_iff _ _).mp rfl))
  · exact .dec (.snoc (cs := [54]) (.one (n := 6) ((decb_iff _ _).mp rfl)) (c := 53) (n := 5) ((decb_iff _ _).mp rfl))

/-- A character that is not a digit of the base, after any number of digits, rejects the entity at that character. -/
theorem C24_reject (t : EPriv) (ht : t.status = 0) (hex : Bool) (ds : List Nat) (hd : ∀ c ∈ ds, ∃ n, Digit hex c n)
    (c : Nat) (hc : ∀ n, ¬ Digit hex c n) (hs : c ≠ 59) (hx : hex = true ∨ ds ≠ [] ∨ c ≠ 120) (r : List Nat) :
    ∃ t', t'.status = 0 ∧ emachine.feed t ((if hex then ascii "x" else []) ++ ds ++ c :: r) =
      .ret ((if hex then 1 else 0) + ds.length + 1) t' [] .deadend := by
  obtain ⟨s, hx', val⟩ := t
  simp only at ht
  subst ht
  have digs : ∀ ds v, (∀ c ∈ ds, ∃ n, Digit hex c n) → ∃ w, Digits hex ds v w := by
    intro ds
    induction ds with
    | nil => intro v _; exact ⟨v, .nil v⟩
    | cons d ds ih =>
      intro v h
      obtain ⟨n, hn⟩ := h d (by simp)
      obtain ⟨w, hw⟩ := ih (v * ebase hex + n) (fun c hc => h c (by simp [hc]))
      exact ⟨w, .cons hn hw⟩
  have hcn : etbl hex c = none := by
    cases h : etbl hex c with
    | none => rfl
    | some n => exact absurd ((etbl_iff hex c n).mp h) (hc n)
  have fin : ∀ s v, s ≠ 0 → emachine.feed ⟨s, hex, v⟩ (c :: r) = .ret 1 ⟨0, hex, v⟩ [] .deadend := by
    intro s v hs0
    refine feed_ret emachine r ?_
    rw [emstep]
    unfold estep
    rw [if_neg (by simp [hs]), if_pos hs0]
    simp only [hcn]
  cases hex with
  | true =>
    obtain ⟨w, hw⟩ := digs ds 0 hd
    have := feed_digits hw 1000 (by omega) (c :: r) (fin _ _ (by omega))
    refine ⟨⟨0, true, w % 2 ^ 32⟩, rfl, ?_⟩
    show emachine.feed _ (120 :: (ds ++ c :: r)) = _
    rw [feed_more emachine (t' := ⟨1000, true, 0⟩) _ rfl, this]
    simp only [Utf8.Fed.after, if_true]
  | false =>
    cases ds with
    | nil =>
      refine ⟨⟨0, false, val⟩, rfl, ?_⟩
      simp only [Bool.false_eq_true, if_false, List.nil_append, List.length_nil]
      refine feed_ret emachine r ?_
      rw [emstep]
      unfold estep
      rw [if_neg (by simp), if_neg (by simp), if_neg (by simpa using hx)]
      simp only [show decb c = none from hcn]
    | cons d ds =>
      obtain ⟨n, hn⟩ := hd d (by simp)
      obtain ⟨w, hw⟩ := digs ds n (fun c hc => hd c (by simp [hc]))
      have := feed_digits hw 1 (by omega) (c :: r) (fin _ _ (by omega))
      rw [num_mod_self false hn] at this
      rw [← etbl_iff] at hn
      have hdb : decb d = some n := hn
      refine ⟨⟨0, false, w % 2 ^ 32⟩, rfl, ?_⟩
      simp only [Bool.false_eq_true, if_false, List.nil_append, List.cons_append]
      rw [feed_more emachine (t' := ⟨1, false, n⟩), this]
      · simp only [Utf8.Fed.after, List.length_cons]
        congr 1
        omega
      · rw [emstep]
        unfold estep
        rw [if_neg (by simp), if_neg (by simp), if_neg (decb_lt hdb).2.2]
        simp only [hdb]

example : (∀ c ∈ ascii "1a", ∃ n, Digit true c n) ∧ (∀ n, ¬ Digit true 71 n) := by
  refine ⟨?_, ?_⟩
  · intro c hc
    have : c = 49 ∨ c = 97 := by simpa [ascii] using hc
    rcases this with rfl | rfl
    · exact ⟨1, (hexb_iff _ _).mp rfl⟩
    · exact ⟨10, (hexb_iff _ _).mp rfl⟩
  · intro n h
    rw [show Digit true = HexByte from rfl, ← hexb_iff] at h
    exact absurd h (by simp [hexb])

/-- Where the claim fails: a value of 2^32 or more is taken modulo 2^32 (`&#4294967361;` gives `A`), a value of 0 gives a
datum without any byte, and `&#x;`, which has no digits at all, is accepted as the same. -/
theorem C24_violated (hx : Bool) (val : Nat) :
    emachine.feed ⟨0, hx, val⟩ (ascii "4294967361;") = .ret 11 ⟨0, false, 65⟩ [[1, 65]] .nextphase ∧
    emachine.feed ⟨0, hx, val⟩ (ascii "0;") = .ret 2 ⟨0, false, 0⟩ [[1]] .nextphase ∧
    emachine.feed ⟨0, hx, val⟩ (ascii "x;") = .ret 2 ⟨0, true, 0⟩ [[1]] .nextphase := by
  refine ⟨?_, rfl, rfl⟩
  simp [ascii, Machine.feed, emstep, estep, etbl, ebase, decb, entBytes]
end Verif.Props
