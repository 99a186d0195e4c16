import Verif.Model.Cp950
import Verif.Spec.Unicode
import Verif.Props.Engine
/-
C27: the user-defined area of CP950.
-/
namespace Verif.Props
open Verif.Spec Verif.Cp950
open Verif.Engine hiding Datum step

/-- The decoder, fresh, takes the bytes `h`, `d` and outputs the datum of `cp`. -/
def UdaDecodes (h d cp : Nat) : Prop :=
  ∀ r : Priv, r.h = 0 → ∃ r1, Cp950.step r h = (r1, [], .cont) ∧
    ∃ r2, Cp950.step r1 d = (r2, [uniDatum cp], .nextphase) ∧ r2.h = 0

/-- A trail byte of Big5. -/
def UdaTrail (d : Nat) : Prop := (0x40 ≤ d ∧ d ≤ 0x7E) ∨ (0xA1 ≤ d ∧ d ≤ 0xFE)

/-- The two-byte codes of the user-defined area, in order, 157 per lead byte: rows FA–FE, 8E–A0, 81–8D and
C6A1–C8FE, from U+E000 on. -/
def udaIndex (h d : Nat) : Option Nat :=
  let col := if d ≤ 0x7E then d - 0x40 else d - 0xA1 + 63
  if 0xFA ≤ h ∧ h ≤ 0xFE then some ((h - 0xFA) * 157 + col)
  else if 0x8E ≤ h ∧ h ≤ 0xA0 then some (5 * 157 + (h - 0x8E) * 157 + col)
  else if 0x81 ≤ h ∧ h ≤ 0x8D then some (24 * 157 + (h - 0x81) * 157 + col)
  else if 0xC6 ≤ h ∧ h ≤ 0xC8 ∧ (h = 0xC6 → 0xA1 ≤ d) then some (37 * 157 + (h - 0xC6) * 157 + col - 63)
  else none

/-- Lead bytes: base code point and first lead byte of their block. -/
inductive Block : Nat → Nat → Nat → Prop
  | fa {h} : 0xFA ≤ h → h ≤ 0xFE → Block h 0xE000 0xFA
  | r8e {h} : 0x8E ≤ h → h ≤ 0xA0 → Block h 0xE311 0x8E
  | r81 {h} : 0x81 ≤ h → h ≤ 0x8D → Block h 0xEEB8 0x81
  | c6 {h} : 0xC6 ≤ h → h ≤ 0xC8 → Block h 0xF672 0xC6

theorem uda_lead {h x y : Nat} (hb : Block h x y) (r : Priv) (hr : r.h = 0) :
    Cp950.step r h = (⟨h, x, y⟩, [], .cont) := by
  unfold Cp950.step
  rw [if_pos hr]
  cases hb with
  | fa h1 h2 => rw [if_pos ⟨h1, h2⟩]
  | r8e h1 h2 => rw [if_neg (by omega), if_pos ⟨h1, h2⟩]
  | r81 h1 h2 => rw [if_neg (by omega), if_neg (by omega), if_pos ⟨h1, h2⟩]
  | c6 h1 h2 => rw [if_neg (by omega), if_neg (by omega), if_neg (by omega), if_pos ⟨h1, h2⟩]

theorem uda_lead_only (r : Priv) (hr : r.h = 0) (h : Nat) {r1 : Priv} (hs : Cp950.step r h = (r1, [], .cont)) :
    ∃ x y, Block h x y ∧ r1 = ⟨h, x, y⟩ := by
  unfold Cp950.step at hs
  rw [if_pos hr] at hs
  split at hs
  · rename_i hh; cases hs; exact ⟨_, _, .fa hh.1 hh.2, rfl⟩
  · split at hs
    · rename_i hh; cases hs; exact ⟨_, _, .r8e hh.1 hh.2, rfl⟩
    · split at hs
      · rename_i hh; cases hs; exact ⟨_, _, .r81 hh.1 hh.2, rfl⟩
      · split at hs
        · rename_i hh; cases hs; exact ⟨_, _, .c6 hh.1 hh.2, rfl⟩
        · cases hs

theorem uda_trail {h x y d : Nat} (h0 : h ≠ 0) (hb : (0xFA40 ≤ h * 256 + d ∧ h * 256 + d ≤ 0xFEFE) ∨
      (0x8E40 ≤ h * 256 + d ∧ h * 256 + d ≤ 0xA0FE) ∨ (0x8140 ≤ h * 256 + d ∧ h * 256 + d ≤ 0x8DFE) ∨
      (0xC6A1 ≤ h * 256 + d ∧ h * 256 + d ≤ 0xC8FE)) {n : Nat} (hn : n < 0x1900)
    (hu : x + 157 * (h - y) + (if d < 0x80 then d else d - 0x62 + 0x40) - 0x40 = 0xE000 + n) :
    Cp950.step ⟨h, x, y⟩ d = (⟨0, x, y⟩, [uniDatum (0xE000 + n)], .nextphase) := by
  have hdat : uniDatum (0xE000 + n) = [1, (0xE000 + n) / 256 % 256, (0xE000 + n) % 256] := by
    unfold uniDatum
    rw [beBytes, if_neg (by omega), beBytes, if_pos (by omega)]
    simp only [List.cons_append, List.nil_append]
    rw [Nat.mod_eq_of_lt (a := (0xE000 + n) / 256) (by omega)]
  unfold Cp950.step
  rw [if_neg (by simpa using h0)]
  simp only
  rw [if_pos hb, hu, hdat]

/-- C27, decoding with legal trail bytes: the code with index `n` is U+E000 + n. -/
theorem C27_decode {h d n : Nat} (hd : UdaTrail d) (hn : udaIndex h d = some n) : UdaDecodes h d (0xE000 + n) := by
  intro r hr
  have hcol : (if d ≤ 0x7E then d - 0x40 else d - 0xA1 + 63) + 0x40 = if d < 0x80 then d else d - 0x62 + 0x40 := by
    unfold UdaTrail at hd; split <;> split <;> omega
  have hlt : (if d ≤ 0x7E then d - 0x40 else d - 0xA1 + 63) < 157 := by
    unfold UdaTrail at hd; split <;> omega
  have hge : 0xA1 ≤ d → 63 ≤ (if d ≤ 0x7E then d - 0x40 else d - 0xA1 + 63) := by
    intro _; split <;> omega
  unfold udaIndex at hn
  simp only at hn
  generalize (if d ≤ 0x7E then d - 0x40 else d - 0xA1 + 63) = col at *
  have hd' : 0x40 ≤ d ∧ d ≤ 0xFE := by unfold UdaTrail at hd; omega
  clear hd
  split at hn
  · rename_i hh
    refine ⟨_, uda_lead (.fa hh.1 hh.2) r hr, _, uda_trail (by omega) (by omega) ?_ ?_, rfl⟩
    · cases hn; omega
    · rw [← hcol]; cases hn; omega
  · split at hn
    · rename_i hh
      refine ⟨_, uda_lead (.r8e hh.1 hh.2) r hr, _, uda_trail (by omega) (by omega) ?_ ?_, rfl⟩
      · cases hn; omega
      · rw [← hcol]; cases hn; omega
    · split at hn
      · rename_i hh
        refine ⟨_, uda_lead (.r81 hh.1 hh.2) r hr, _, uda_trail (by omega) (by omega) ?_ ?_, rfl⟩
        · cases hn; omega
        · rw [← hcol]; cases hn; omega
      · split at hn
        · rename_i hh
          refine ⟨_, uda_lead (.c6 hh.1 hh.2.1) r hr, _, uda_trail (by omega) (by omega) ?_ ?_, rfl⟩
          · cases hn; omega
          · rw [← hcol]; cases hn; omega
        · cases hn

theorem uda_index_inj {h d h' d' n : Nat} (hd : UdaTrail d) (hd' : UdaTrail d') (h1 : udaIndex h d = some n)
    (h2 : udaIndex h' d' = some n) : h = h' ∧ d = d' := by
  unfold UdaTrail at hd hd'
  have e1 : ∃ col, col < 157 ∧ (col < 63 ∧ d = col + 0x40 ∨ 63 ≤ col ∧ d + 63 = col + 0xA1) ∧
      (if d ≤ 0x7E then d - 0x40 else d - 0xA1 + 63) = col := by
    refine ⟨_, ?_, ?_, rfl⟩ <;> split <;> omega
  have e2 : ∃ col, col < 157 ∧ (col < 63 ∧ d' = col + 0x40 ∨ 63 ≤ col ∧ d' + 63 = col + 0xA1) ∧
      (if d' ≤ 0x7E then d' - 0x40 else d' - 0xA1 + 63) = col := by
    refine ⟨_, ?_, ?_, rfl⟩ <;> split <;> omega
  obtain ⟨c1, l1, k1, q1⟩ := e1
  obtain ⟨c2, l2, k2, q2⟩ := e2
  unfold udaIndex at h1 h2
  simp only [q1] at h1
  simp only [q2] at h2
  clear q1 q2 hd hd'
  have f1 : (0xFA ≤ h ∧ h ≤ 0xFE ∧ n = (h - 0xFA) * 157 + c1) ∨ (0x8E ≤ h ∧ h ≤ 0xA0 ∧ n = 5 * 157 + (h - 0x8E) * 157 + c1) ∨
      (0x81 ≤ h ∧ h ≤ 0x8D ∧ n = 24 * 157 + (h - 0x81) * 157 + c1) ∨
      (0xC6 ≤ h ∧ h ≤ 0xC8 ∧ (h = 0xC6 → 63 ≤ c1) ∧ n + 63 = 37 * 157 + (h - 0xC6) * 157 + c1) := by
    split at h1
    · cases h1; omega
    · split at h1
      · cases h1; omega
      · split at h1
        · cases h1; omega
        · split at h1
          · cases h1; omega
          · cases h1
  have f2 : (0xFA ≤ h' ∧ h' ≤ 0xFE ∧ n = (h' - 0xFA) * 157 + c2) ∨ (0x8E ≤ h' ∧ h' ≤ 0xA0 ∧ n = 5 * 157 + (h' - 0x8E) * 157 + c2) ∨
      (0x81 ≤ h' ∧ h' ≤ 0x8D ∧ n = 24 * 157 + (h' - 0x81) * 157 + c2) ∨
      (0xC6 ≤ h' ∧ h' ≤ 0xC8 ∧ (h' = 0xC6 → 63 ≤ c2) ∧ n + 63 = 37 * 157 + (h' - 0xC6) * 157 + c2) := by
    split at h2
    · cases h2; omega
    · split at h2
      · cases h2; omega
      · split at h2
        · cases h2; omega
        · split at h2
          · cases h2; omega
          · cases h2
  clear h1 h2
  have hc : h = h' ∧ c1 = c2 := by omega
  omega

theorem uda_decodes_unique {h d a b : Nat} (h1 : UdaDecodes h d a) (h2 : UdaDecodes h d b) : uniDatum a = uniDatum b := by
  obtain ⟨r1, e1, r2, e2, _⟩ := h1 ⟨0, 0, 0⟩ rfl
  obtain ⟨s1, e3, s2, e4, _⟩ := h2 ⟨0, 0, 0⟩ rfl
  rw [e1] at e3
  cases e3
  rw [e2] at e4
  injection e4 with _ e4
  injection e4 with e4 _
  exact (List.cons.inj e4).1

/-- The number of a datum. -/
theorem beBytes_inj {a b : Nat} (h : beBytes a = beBytes b) : a = b := by
  have key : ∀ n, (beBytes n).foldl (fun u b => u * 256 + b) 0 = n := by
    intro n
    induction n using Nat.strongRecOn with
    | ind n ih =>
      rw [beBytes]
      split
      · simp
      · rw [List.foldl_append, ih (n / 256) (by omega)]; simp only [List.foldl_cons, List.foldl_nil]; omega
  rw [← key a, h, key b]

/-- C27 for the legal codes: different codes give different code points.  Missing: trail bytes outside the Big5 ranges,
which the decoder also accepts, see `C27_violated`. -/
theorem C27_injective_partial {h d h' d' cp : Nat} (hd : UdaTrail d) (hd' : UdaTrail d') (hu : (udaIndex h d).isSome)
    (hu' : (udaIndex h' d').isSome) (h1 : UdaDecodes h d cp) (h2 : UdaDecodes h' d' cp) : h = h' ∧ d = d' := by
  obtain ⟨n, hn⟩ := Option.isSome_iff_exists.1 hu
  obtain ⟨m, hm⟩ := Option.isSome_iff_exists.1 hu'
  have e1 := beBytes_inj (List.cons.inj (uda_decodes_unique h1 (C27_decode hd hn))).2
  have e2 := beBytes_inj (List.cons.inj (uda_decodes_unique h2 (C27_decode hd' hm))).2
  have : n = m := by omega
  subst this
  exact uda_index_inj hd hd' hn hm

/-- C27 is false: FA FE and FB 3F both decode to U+E09C, FA 7E and FA A0 both to U+E03E (the range test looks at the
two bytes as one number). -/
theorem C27_violated : (UdaDecodes 0xFA 0xFE 0xE09C ∧ UdaDecodes 0xFB 0x3F 0xE09C) ∧
    (UdaDecodes 0xFA 0x7E 0xE03E ∧ UdaDecodes 0xFA 0xA0 0xE03E) := by
  refine ⟨⟨?_, ?_⟩, ⟨?_, ?_⟩⟩ <;> intro r hr <;>
    exact ⟨_, uda_lead (.fa (by decide) (by decide)) r hr, _,
      by first | exact uda_trail (n := 0x9C) (by decide) (by decide) (by decide) (by decide)
               | exact uda_trail (n := 0x3E) (by decide) (by decide) (by decide) (by decide), rfl⟩

-- C6A1 is U+F6B1, the first code of the last block; 8140 the first of the third.
example : UdaDecodes 0xC6 0xA1 0xF6B1 ∧ UdaDecodes 0x81 0x40 0xEEB8 :=
  ⟨C27_decode (n := 0x16B1) (by unfold UdaTrail; decide) (by decide), C27_decode (n := 0xEB8) (by unfold UdaTrail; decide) (by decide)⟩

end Verif.Props
