import Verif.Props.Inter
import Verif.Model.Normal
import Verif.Spec.Hangul
import Verif.Spec.Ordering
/-
C28, C29: normalisation codecs, in any conversion.
-/
namespace Verif.Props
open Verif.Spec
open Verif.Engine hiding Datum step
open Verif.Inter

variable {π σ : Type}

/-! ### Numbers and data -/

theorem stackBytes_eq (n : Nat) (hn : 0 < n) : stackBytes n = beBytes n := by
  induction n using Nat.strongRecOn with
  | ind n ih =>
    rw [stackBytes, beBytes, if_neg (by omega)]
    split
    · have e : n / 256 = 0 := by omega
      have e2 : n % 256 = n := by omega
      rw [e, e2, stackBytes]; rfl
    · rw [ih (n / 256) (by omega) (by omega)]

theorem uniOf_eq {n : Nat} (hn : 0 < n) : uniOf n = uniDatum n := by rw [uniOf, stackBytes_eq n hn, uniDatum]

theorem beBytes_bytes (n : Nat) : IsBytes (beBytes n) := by
  induction n using Nat.strongRecOn with
  | ind n ih =>
    rw [beBytes]
    split
    · intro b hb; simp only [List.mem_cons, List.not_mem_nil, or_false] at hb; omega
    · intro b hb
      simp only [List.mem_append, List.mem_cons, List.not_mem_nil, or_false] at hb
      rcases hb with hb | hb
      · exact ih _ (by omega) b hb
      · omega

theorem uniDatum_bytes (n : Nat) : IsBytes (uniDatum n) := by
  intro b hb
  simp only [uniDatum, List.mem_cons] at hb
  rcases hb with rfl | hb
  · decide
  · exact beBytes_bytes n b hb

theorem stackBytes_bytes (n : Nat) : IsBytes (stackBytes n) := by
  by_cases h : n = 0
  · subst h; rw [stackBytes]; intro b hb; simp at hb
  · rw [stackBytes_eq n (by omega)]; exact beBytes_bytes n

theorem uniOf_bytes (n : Nat) : IsBytes (uniOf n) := by
  intro b hb
  simp only [uniOf, List.mem_cons] at hb
  rcases hb with rfl | hb
  · decide
  · exact stackBytes_bytes n b hb

theorem char_uni {n : Nat} (hn : n < 2 ^ 32) : char? (uniDatum n) = some n := by
  rw [uniDatum, char?, ← ucs_beNat _ (beBytes_bytes n), ucs_beBytes n hn]

theorem char_cons {p : List Nat} (hp : IsBytes (1 :: p)) : char? (1 :: p) = some (Range.ucs p) := by
  rw [char?, ucs_beNat p (fun x hx => hp x (by simp [hx]))]

theorem char_other {d : Datum} (h : d.head? ≠ some 1) : char? d = none := by
  match d with
  | [] => rfl
  | a :: p =>
    by_cases ha : a = 1
    · subst ha; simp at h
    · unfold char?
      split
      · rename_i heq; simp only [List.cons.injEq] at heq; exact absurd heq.1 ha
      · rfl

theorem index_some {u b c i : Nat} (h : index u b c = some i) : b ≤ u ∧ u < b + c ∧ i = u - b := by
  unfold index at h
  split at h
  · rename_i hh; simp only [Option.some.injEq] at h; omega
  · simp at h

theorem index_pos {u b c : Nat} (h1 : b ≤ u) (h2 : u < b + c) : index u b c = some (u - b) := by
  unfold index; rw [if_pos (by omega)]

theorem index_neg {u b c : Nat} (h : ¬ (b ≤ u ∧ u < b + c)) : index u b c = none := by
  unfold index; rw [if_neg (by omega)]

/-! ### C28: Hangul -/

section hangul

theorem within_some {a b : Nat} {d : Datum} {u : Nat} (h : char? d = some u) : within a b d = decide (a ≤ u ∧ u ≤ b) := by
  simp only [within, h]

theorem within_none {a b : Nat} {d : Datum} (h : char? d = none) : within a b d = false := by
  simp only [within, h]

theorem chr_some {d : Datum} {u : Nat} (h : char? d = some u) : chr d = u := by simp [chr, h]

theorem isL_chr {d : Datum} (h : isL d = true) : 0x1100 ≤ chr d ∧ chr d ≤ 0x1112 := by
  unfold isL within at h
  split at h
  · rename_i u hu; rw [chr_some hu]; simpa using h
  · simp at h

theorem isV_chr {d : Datum} (h : isV d = true) : 0x1161 ≤ chr d ∧ chr d ≤ 0x1175 := by
  unfold isV within at h
  split at h
  · rename_i u hu; rw [chr_some hu]; simpa using h
  · simp at h

theorem isT_chr {d : Datum} (h : isT d = true) : 0x11A8 ≤ chr d ∧ chr d ≤ 0x11C2 := by
  unfold isT within at h
  split at h
  · rename_i u hu; rw [chr_some hu]; simpa using h
  · simp at h

theorem composed_one {d : Datum} (h : isL d = false) (ds : List Datum) : composed (d :: ds) = d :: composed ds := by
  match ds with
  | [] => simp [composed, h]
  | [v] => simp [composed, h]
  | v :: t :: ds => rw [composed]; simp [h]

theorem composed_L {l v : Datum} (h : isV v = false) (hl : isL l = true) (ds : List Datum) :
    composed (l :: v :: ds) = uniDatum (chr l) :: composed (v :: ds) := by
  match ds with
  | [] => simp [composed, h, hl]
  | t :: ds => rw [composed]; simp [h, hl]

theorem composed_LVT {l v t : Datum} (hl : isL l = true) (hv : isV v = true) (ht : isT t = true) (ds : List Datum) :
    composed (l :: v :: t :: ds) = uniDatum (syllable (chr l) (chr v) (chr t)) :: composed ds := by
  rw [composed]; simp [hl, hv, ht]

theorem composed_LV {l v t : Datum} (hl : isL l = true) (hv : isV v = true) (ht : isT t = false) (ds : List Datum) :
    composed (l :: v :: t :: ds) = uniDatum (syllable (chr l) (chr v) 0x11A7) :: composed (t :: ds) := by
  rw [composed]; simp [hl, hv, ht]

/-- The kinds of data the code distinguishes. -/
theorem datum_cases {d : Datum} (hd : IsBytes d) :
    (∃ p, d = 1 :: p ∧ char? d = some (Range.ucs p)) ∨ (d.head? ≠ some 1 ∧ char? d = none) := by
  match d with
  | [] => exact .inr ⟨by simp, rfl⟩
  | a :: p =>
    by_cases ha : a = 1
    · subst ha; exact .inl ⟨p, rfl, char_cons hd⟩
    · refine .inr ⟨by simpa using ha, char_other (by simpa using ha)⟩

theorem compose_act0 {d : Datum} (hd : IsBytes d) (x : Nat) :
    if isL d then hangulCompose.act ⟨0, x⟩ d = some (⟨1, chr d⟩, [], true)
    else hangulCompose.act ⟨0, x⟩ d = none ∨ hangulCompose.act ⟨0, x⟩ d = some (⟨0, x⟩, [d], false) := by
  rcases datum_cases hd with ⟨p, rfl, hc⟩ | ⟨h1, hc⟩
  · rw [isL, within_some hc, chr_some hc]
    by_cases hL : 0x1100 ≤ Range.ucs p ∧ Range.ucs p ≤ 0x1112
    · simp only [hL, decide_true, if_true, hangulCompose]
      rw [index_pos hL.1 (by omega)]
      simp
    · simp only [hL, decide_false, Bool.false_eq_true, if_false]
      left
      simp only [hangulCompose, if_true]
      rw [index_neg (by omega)]
  · rw [isL, within_none hc]
    simp only [Bool.false_eq_true, if_false]
    right
    match d with
    | [] => rfl
    | a :: p =>
      have ha : a ≠ 1 := by simpa using h1
      simp only [hangulCompose]
      split
      · rename_i heq; simp only [List.cons.injEq] at heq; exact absurd heq.1 ha
      · rfl

theorem restart_eq (t : Hangul) {d p : List Nat} (hd : d = 1 :: p) (hc : char? d = some (Range.ucs p)) (ht : t.status ≠ 0) :
    t.restart (Range.ucs p) d = if isL d then some (⟨1, chr d⟩, [uniOf t.pending], true)
      else some (⟨0, t.pending⟩, [uniOf t.pending, d], false) := by
  rw [isL, within_some hc, chr_some hc]
  simp only [Hangul.restart, Hangul.flush, ht, if_false]
  by_cases hL : 0x1100 ≤ Range.ucs p ∧ Range.ucs p ≤ 0x1112
  · rw [index_pos hL.1 (by omega)]; simp [hL]
  · rw [index_neg (by omega)]; simp [hL]

theorem compose_other {d : Datum} (h1 : d.head? ≠ some 1) (t : Hangul) (ht : t.status ≠ 0) :
    hangulCompose.act t d = some (⟨0, t.pending⟩, [uniOf t.pending, d], false) := by
  match d with
  | [] => simp [hangulCompose, Hangul.flush, ht]
  | a :: p =>
    have ha : a ≠ 1 := by simpa using h1
    simp only [hangulCompose]
    split
    · rename_i heq; simp only [List.cons.injEq] at heq; exact absurd heq.1 ha
    · simp [Hangul.flush, ht]

theorem compose_act1 {d : Datum} (hd : IsBytes d) {l : Nat} (hl : 0x1100 ≤ l ∧ l ≤ 0x1112) :
    hangulCompose.act ⟨1, l⟩ d =
      if isV d then some (⟨2, syllable l (chr d) 0x11A7⟩, [], true)
      else if isL d then some (⟨1, chr d⟩, [uniOf l], true)
      else some (⟨0, l⟩, [uniOf l, d], false) := by
  rcases datum_cases hd with ⟨p, hp, hc⟩ | ⟨h1, hc⟩
  · have hV : isV d = decide (0x1161 ≤ Range.ucs p ∧ Range.ucs p ≤ 0x1175) := within_some hc
    have hu := chr_some hc
    by_cases hv : 0x1161 ≤ Range.ucs p ∧ Range.ucs p ≤ 0x1175
    · have : isV d = true := by rw [hV]; simpa using hv
      rw [this, if_pos rfl]
      subst hp
      simp only [hangulCompose, show ¬ (1 = 0) by decide, if_false, if_true]
      rw [index_pos hv.1 (by omega)]
      have e : syllable l (chr (1 :: p)) 0x11A7 = 0xAC00 + ((l - 0x1100) * 21 + (Range.ucs p - 0x1161)) * 28 := by
        rw [hu]; unfold syllable; omega
      rw [e]
      generalize hx : (l - 0x1100) * 21 + (Range.ucs p - 0x1161) = x
      have hx' : x < 19 * 21 := by omega
      simp only []
      rw [if_pos (by omega), hx]
    · have : isV d = false := by rw [hV]; simpa using hv
      rw [this, if_neg (by simp)]
      have hr := restart_eq ⟨1, l⟩ hp hc (by simp)
      rw [← hr]
      subst hp
      simp only [hangulCompose, show ¬ (1 = 0) by decide, if_false, if_true]
      rw [index_neg (by omega)]
  · rw [compose_other h1 _ (by simp), isV, isL, within_none hc, within_none hc]
    simp

theorem compose_act2 {d : Datum} (hd : IsBytes d) (s : Nat) :
    hangulCompose.act ⟨2, s⟩ d =
      if isT d then some (⟨0, s + (chr d - 0x11A7)⟩, [uniOf (s + (chr d - 0x11A7))], false)
      else if isL d then some (⟨1, chr d⟩, [uniOf s], true)
      else some (⟨0, s⟩, [uniOf s, d], false) := by
  rcases datum_cases hd with ⟨p, hp, hc⟩ | ⟨h1, hc⟩
  · have hT : isT d = decide (0x11A8 ≤ Range.ucs p ∧ Range.ucs p ≤ 0x11C2) := within_some hc
    have hu := chr_some hc
    by_cases ht : 0x11A8 ≤ Range.ucs p ∧ Range.ucs p ≤ 0x11C2
    · have : isT d = true := by rw [hT]; simpa using ht
      rw [this, if_pos rfl]
      subst hp
      simp only [hangulCompose, show ¬ (2 = 0) by decide, show ¬ (2 = 1) by decide, if_false]
      rw [index_pos (by omega) (by omega)]
      simp only []
      rw [if_pos (by omega), hu]
      simp [Hangul.flush]
    · have : isT d = false := by rw [hT]; simpa using ht
      rw [this, if_neg (by simp)]
      have hr := restart_eq ⟨2, s⟩ hp hc (by simp)
      rw [← hr]
      subst hp
      simp only [hangulCompose, show ¬ (2 = 0) by decide, show ¬ (2 = 1) by decide, if_false]
      by_cases hb : Range.ucs p = 0x11A7
      · rw [index_pos (by omega) (by omega), hb]
        simp
      · rw [index_neg (by omega)]
  · rw [compose_other h1 _ (by simp), isT, isL, within_none hc, within_none hc]
    simp

theorem run_compose (ds : List Datum) (hb : AllBytes ds) :
    (∀ x, (hangulCompose.run true false ⟨0, x⟩ ds).out = composed ds) ∧
    (∀ l : Datum, isL l = true → (hangulCompose.run true true ⟨1, chr l⟩ ds).out = composed (l :: ds)) ∧
    (∀ l v : Datum, isL l = true → isV v = true →
      (hangulCompose.run true true ⟨2, syllable (chr l) (chr v) 0x11A7⟩ ds).out = composed (l :: v :: ds)) := by
  induction ds with
  | nil =>
    refine ⟨fun _ => rfl, ?_, ?_⟩
    · intro l hl
      have := isL_chr hl
      simp [Handler.run, hangulCompose, Hangul.flush, composed, hl, uniOf_eq (show 0 < chr l by omega)]
    · intro l v hl hv
      simp [Handler.run, hangulCompose, Hangul.flush, composed, hl, hv,
        uniOf_eq (show 0 < syllable (chr l) (chr v) 0x11A7 by unfold syllable; omega)]
  | cons d ds ih =>
    have hd := hb d (by simp)
    obtain ⟨i0, i1, i2⟩ := ih (fun x hx => hb x (by simp [hx]))
    refine ⟨?_, ?_, ?_⟩
    · intro x
      have ha := compose_act0 hd x
      cases hL : isL d with
      | true =>
        rw [hL, if_pos rfl] at ha
        rw [Handler.run_some ha]
        exact i1 d hL
      | false =>
        rw [hL] at ha
        simp only [Bool.false_eq_true, if_false] at ha
        rw [composed_one hL]
        rcases ha with ha | ha
        · rw [Handler.run, ha]
          simp only [Out.after, if_true, i0]
          rfl
        · rw [Handler.run_some ha]
          simp only [Out.after, i0]
          rfl
    · intro l hl
      have hlr := isL_chr hl
      have ha := compose_act1 hd hlr
      have hu := uniOf_eq (show 0 < chr l by omega)
      cases hV : isV d with
      | true =>
        rw [hV, if_pos rfl] at ha
        rw [Handler.run_some ha]
        exact i2 l d hl hV
      | false =>
        rw [hV, if_neg (by simp)] at ha
        rw [composed_L hV hl]
        cases hL : isL d with
        | true =>
          rw [hL, if_pos rfl] at ha
          rw [Handler.run_some ha]
          simp only [Out.after, i1 d hL, hu]
          rfl
        | false =>
          rw [hL, if_neg (by simp)] at ha
          rw [Handler.run_some ha, composed_one hL]
          simp only [Out.after, i0, hu]
          rfl
    · intro l v hl hv
      have hlr := isL_chr hl
      have ha := compose_act2 hd (syllable (chr l) (chr v) 0x11A7)
      have hpos : 0 < syllable (chr l) (chr v) 0x11A7 := by unfold syllable; omega
      have hu := uniOf_eq hpos
      cases hT : isT d with
      | true =>
        rw [hT, if_pos rfl] at ha
        rw [Handler.run_some ha, composed_LVT hl hv hT]
        have e : syllable (chr l) (chr v) 0x11A7 + (chr d - 0x11A7) = syllable (chr l) (chr v) (chr d) := by
          unfold syllable; omega
        simp only [Out.after, i0, e]
        rw [uniOf_eq (by unfold syllable; omega)]
        rfl
      | false =>
        rw [hT, if_neg (by simp)] at ha
        rw [composed_LV hl hv hT]
        cases hL : isL d with
        | true =>
          rw [hL, if_pos rfl] at ha
          rw [Handler.run_some ha]
          simp only [Out.after, i1 d hL, hu]
          rfl
        | false =>
          rw [hL, if_neg (by simp)] at ha
          rw [Handler.run_some ha, composed_one hL]
          simp only [Out.after, i0, hu]
          rfl

theorem restart_some (t : Hangul) (u : Nat) (d : Datum) : t.restart u d ≠ none := by
  unfold Hangul.restart
  split <;> simp

theorem compose_takes {t : Hangul} (ht : t.status ≠ 0) (d : Datum) : hangulCompose.act t d ≠ none := by
  simp only [hangulCompose]
  split
  · rw [if_neg ht]
    split
    · split
      · split
        · simp
        · exact restart_some _ _ _
      · exact restart_some _ _ _
    · split
      · split
        · simp
        · exact restart_some _ _ _
      · exact restart_some _ _ _
  · simp

theorem flush_ok (t : Hangul) : ∀ x ∈ t.flush.2, IsBytes x := by
  unfold Hangul.flush
  split
  · simp
  · intro x hx; simp only [List.mem_cons, List.not_mem_nil, or_false] at hx; exact hx ▸ uniOf_bytes _

theorem sound_compose : Sound hangulCompose (fun _ => True) where
  act := by
    have restart : ∀ (t : Hangul) (u : Nat) (d : Datum), IsBytes d → ∀ t' out b, t.restart u d = some (t', out, b) →
        (∀ x ∈ out, IsBytes x) ∧ (b = true → t'.status ≠ 0) := by
      intro t u d hd t' out b h
      unfold Hangul.restart at h
      split at h
      · simp only [Option.some.injEq, Prod.mk.injEq] at h
        obtain ⟨rfl, rfl, rfl⟩ := h
        exact ⟨flush_ok t, by simp⟩
      · simp only [Option.some.injEq, Prod.mk.injEq] at h
        obtain ⟨rfl, rfl, rfl⟩ := h
        refine ⟨?_, by simp⟩
        intro x hx
        simp only [List.mem_append, List.mem_cons, List.not_mem_nil, or_false] at hx
        rcases hx with hx | rfl
        · exact flush_ok t x hx
        · exact hd
    intro t d _ _ hd t' out b h
    suffices hh : (∀ x ∈ out, IsBytes x) ∧ (b = true → t'.status ≠ 0) from
      ⟨trivial, hh.1, fun hb d' _ _ => compose_takes (hh.2 hb) d'⟩
    simp only [hangulCompose] at h
    split at h
    · split at h
      · split at h
        · simp only [Option.some.injEq, Prod.mk.injEq] at h
          obtain ⟨rfl, rfl, rfl⟩ := h
          exact ⟨by simp, by simp⟩
        · simp at h
      · split at h
        · split at h
          · split at h
            · simp only [Option.some.injEq, Prod.mk.injEq] at h
              obtain ⟨rfl, rfl, rfl⟩ := h
              exact ⟨by simp, by simp⟩
            · exact restart _ _ _ hd _ _ _ h
          · exact restart _ _ _ hd _ _ _ h
        · split at h
          · split at h
            · simp only [Option.some.injEq, Prod.mk.injEq] at h
              obtain ⟨rfl, rfl, rfl⟩ := h
              exact ⟨flush_ok _, by simp⟩
            · exact restart _ _ _ hd _ _ _ h
          · exact restart _ _ _ hd _ _ _ h
    · simp only [Option.some.injEq, Prod.mk.injEq] at h
      obtain ⟨rfl, rfl, rfl⟩ := h
      refine ⟨?_, by simp⟩
      intro x hx
      simp only [List.mem_append, List.mem_cons, List.not_mem_nil, or_false] at hx
      rcases hx with hx | rfl
      · exact flush_ok t x hx
      · exact hd
  flush := by intro t _; exact ⟨trivial, flush_ok t⟩

theorem jamo_eq {s : Nat} (hs : 0xAC00 ≤ s ∧ s ≤ 0xD7A3) : decomposeHangul s = (jamo s).map uniDatum := by
  unfold decomposeHangul
  rw [index_pos hs.1 (by omega)]
  simp only [jamo]
  rw [uniOf_eq (by omega), uniOf_eq (by omega)]
  by_cases h : 0x11A7 + (s - 0xAC00) % 28 = 0x11A7
  · rw [if_neg (by simpa using h), if_pos h]; rfl
  · rw [if_pos h, if_neg h, uniOf_eq (by omega)]; rfl

theorem decompose_act {d : Datum} (hd : IsBytes d) (hu : char? d ≠ none) (t : Unit) :
    hangulDecompose.act t d = some (t, if isS d then (jamo (chr d)).map uniDatum else [d], false) := by
  rcases datum_cases hd with ⟨p, hp, hc⟩ | ⟨_, hc⟩
  · rw [isS, within_some hc, chr_some hc]
    subst hp
    simp only [hangulDecompose]
    by_cases hS : 0xAC00 ≤ Range.ucs p ∧ Range.ucs p ≤ 0xD7A3
    · rw [index_pos hS.1 (by omega), jamo_eq hS]; simp [hS]
    · rw [index_neg (by omega)]; simp [hS]
  · exact absurd hc hu

variable {st : Nat → Static π} {ip : Nat → Nat → π → π} {ins : Ins π} {pre post : List (Proc π)} {s : Static π}

theorem sound_decompose : Sound hangulDecompose (fun _ => True) where
  act := by
    intro t d _ _ hd t' out b h
    have hb : ∀ u, ∀ x ∈ decomposeHangul u, IsBytes x := by
      intro u x hx
      unfold decomposeHangul at hx
      split at hx
      · simp only [] at hx
        split at hx <;> simp only [List.mem_cons, List.not_mem_nil, or_false] at hx
        · rcases hx with rfl | rfl | rfl <;> exact uniOf_bytes _
        · rcases hx with rfl | rfl <;> exact uniOf_bytes _
      · simp only [List.mem_cons, List.not_mem_nil, or_false] at hx
        exact hx ▸ uniOf_bytes _
    simp only [hangulDecompose] at h
    split at h
    · split at h <;> simp only [Option.some.injEq, Prod.mk.injEq] at h <;> obtain ⟨_, rfl, rfl⟩ := h
      · exact ⟨trivial, hb _, by simp⟩
      · exact ⟨trivial, bytes_single _ hd, by simp⟩
    · simp only [Option.some.injEq, Prod.mk.injEq] at h
      obtain ⟨_, rfl, rfl⟩ := h
      exact ⟨trivial, by simp, by simp⟩
  flush := by intro t _; exact ⟨trivial, by simp [hangulDecompose]⟩

theorem run_decompose (ps : Bool) (ds : List Datum) (hb : AllBytes ds) (hu : ∀ d ∈ ds, char? d ≠ none) :
    hangulDecompose.run ps false () ds = ⟨decomposed ds, 0, ()⟩ := by
  induction ds with
  | nil => rfl
  | cons d ds ih =>
    rw [Handler.run_some (decompose_act (hb d (by simp)) (hu d (by simp)) ()),
      ih (fun x hx => hb x (by simp [hx])) (fun x hx => hu x (by simp [hx]))]
    simp only [Out.after, decomposed, List.flatMap_cons]

/-- C28.  A phase `_NF-HANGUL-DECOMPOSITION` replaces every precomposed syllable by its jamo and leaves all other
unicode data alone. -/
theorem C28_decompose (h : Placed st ip ins pre s post) {e : Lens π Unit} (hs : Only s .inter (plain e hangulDecompose)) :
    Converts st ip ins (pre ++ {
      out := fun ds => decomposed (nonEmpty ds)
      ok := fun ds => ∀ d ∈ nonEmpty ds, char? d ≠ none } :: post) := by
  refine single_converts h (single_plain hs (by simp) (fun _ => rfl)) sound_decompose rfl trivial rfl ?_
  intro ds hb hu
  have := run_decompose (passes s) _ (nonEmpty_bytes hb).1 hu
  rw [show e.get (initPriv st ip ins (pre.length + 1) 0) = () from rfl, this]
  exact ⟨rfl, rfl, by simp, fun _ _ => trivial⟩

/-- C28.  A phase `_NF-HANGUL-COMPOSITION` composes jamo from left to right and leaves everything else alone. -/
theorem C28_compose (h : Placed st ip ins pre s post) {e : Lens π Hangul} (hs : Only s .inter (flushing e hangulCompose))
    (hi : ∀ x, e.get (ip (pre.length + 1) 0 x) = { (e.get x) with status := 0 }) :
    Converts st ip ins (pre ++ { out := fun ds => composed (nonEmpty ds) } :: post) := by
  refine single_converts h (single_flushing hs (by simp)) sound_compose
    (initPriv_get (placed_le h) (by omega) e (fun x => { x with status := 0 }) hi) trivial rfl ?_
  intro ds hb hu
  rw [passes_inter hs]
  exact ⟨rfl, ((run_compose _ (nonEmpty_bytes hb).1).1 _).symm, by simp, fun _ _ => trivial⟩

/-- The jamo of a syllable, and back. -/
theorem jamo_shape {n : Nat} (hn : 0xAC00 ≤ n ∧ n ≤ 0xD7A3) :
    ∃ l v : Nat, (0x1100 ≤ l ∧ l ≤ 0x1112) ∧ (0x1161 ≤ v ∧ v ≤ 0x1175) ∧
      ((jamo n = [l, v] ∧ syllable l v 0x11A7 = n) ∨
        ∃ t, (0x11A8 ≤ t ∧ t ≤ 0x11C2) ∧ jamo n = [l, v, t] ∧ syllable l v t = n) := by
  refine ⟨0x1100 + (n - 0xAC00) / 588, 0x1161 + (n - 0xAC00) % 588 / 28, by omega, by omega, ?_⟩
  by_cases h : 0x11A7 + (n - 0xAC00) % 28 = 0x11A7
  · left
    refine ⟨by simp only [jamo]; rw [if_pos h], ?_⟩
    unfold syllable; omega
  · right
    refine ⟨0x11A7 + (n - 0xAC00) % 28, by omega, by simp only [jamo]; rw [if_neg h], ?_⟩
    unfold syllable; omega

theorem uni_class {n : Nat} (hn : n < 2 ^ 32) (a b : Nat) : within a b (uniDatum n) = decide (a ≤ n ∧ n ≤ b) :=
  within_some (char_uni hn)

theorem uni_chr {n : Nat} (hn : n < 2 ^ 32) : chr (uniDatum n) = n := chr_some (char_uni hn)

/-- Not a conjoining jamo. -/
def notJamo (d : Datum) : Bool := !isL d && !isV d && !isT d

/-- C28.  Composing what decomposition puts out gives the text back, for every text without conjoining jamo (its
syllables written in the standard way). -/
theorem C28_inverse (ds : List Datum) (hj : ∀ d ∈ ds, notJamo d = true) (hc : ∀ d ∈ ds, isS d = true → d = uniDatum (chr d)) :
    composed (decomposed ds) = ds := by
  have head : ∀ ds : List Datum, (∀ d ∈ ds, notJamo d = true) → ∀ l v : Datum, isL l = true → isV v = true →
      composed (l :: v :: decomposed ds) = uniDatum (syllable (chr l) (chr v) 0x11A7) :: composed (decomposed ds) := by
    intro ds hj l v hl hv
    match ds with
    | [] => simp [decomposed, composed, hl, hv]
    | d :: ds =>
      have hjd := hj d (by simp)
      simp only [notJamo, Bool.and_eq_true, Bool.not_eq_true'] at hjd
      cases hS : isS d with
      | false =>
        simp only [decomposed, List.flatMap_cons, hS, Bool.false_eq_true, if_false, List.cons_append, List.nil_append]
        exact composed_LV hl hv hjd.2 _
      | true =>
        have hn : 0xAC00 ≤ chr d ∧ chr d ≤ 0xD7A3 := by
          unfold isS within at hS
          split at hS
          · rename_i u hu; rw [chr_some hu]; simpa using hS
          · simp at hS
        obtain ⟨l', v', h1, h2, h3⟩ := jamo_shape hn
        have ht : isT (uniDatum l') = false := by rw [isT, uni_class (by omega)]; simp; omega
        rcases h3 with ⟨h3, _⟩ | ⟨t, _, h3, _⟩
        · simp only [decomposed, List.flatMap_cons, hS, if_true, h3, List.map_cons, List.map_nil, List.cons_append, List.nil_append]
          exact composed_LV hl hv ht _
        · simp only [decomposed, List.flatMap_cons, hS, if_true, h3, List.map_cons, List.map_nil, List.cons_append, List.nil_append]
          exact composed_LV hl hv ht _
  induction ds with
  | nil => rfl
  | cons d ds ih =>
    have ih := ih (fun x hx => hj x (by simp [hx])) (fun x hx => hc x (by simp [hx]))
    have hjd := hj d (by simp)
    have hjs : ∀ d ∈ ds, notJamo d = true := fun x hx => hj x (by simp [hx])
    simp only [notJamo, Bool.and_eq_true, Bool.not_eq_true'] at hjd
    cases hS : isS d with
    | false =>
      have e : decomposed (d :: ds) = d :: decomposed ds := by simp [decomposed, hS]
      rw [e, composed_one hjd.1.1, ih]
    | true =>
      have hd := hc d (by simp) hS
      have hn : 0xAC00 ≤ chr d ∧ chr d ≤ 0xD7A3 := by
        unfold isS within at hS
        split at hS
        · rename_i u hu; rw [chr_some hu]; simpa using hS
        · simp at hS
      obtain ⟨l, v, h1, h2, h3⟩ := jamo_shape hn
      have hl : isL (uniDatum l) = true := by rw [isL, uni_class (by omega)]; simpa using h1
      have hv : isV (uniDatum v) = true := by rw [isV, uni_class (by omega)]; simpa using h2
      rcases h3 with ⟨h3, h4⟩ | ⟨t, ht, h3, h4⟩
      · have e : decomposed (d :: ds) = uniDatum l :: uniDatum v :: decomposed ds := by
          simp only [decomposed, List.flatMap_cons, hS, if_true, h3]; rfl
        rw [e, head ds hjs _ _ hl hv, ih, uni_chr (by omega), uni_chr (by omega), h4, ← hd]
      · have htd : isT (uniDatum t) = true := by rw [isT, uni_class (by omega)]; simpa using ht
        have e : decomposed (d :: ds) = uniDatum l :: uniDatum v :: uniDatum t :: decomposed ds := by
          simp only [decomposed, List.flatMap_cons, hS, if_true, h3]; rfl
        rw [e, composed_LVT hl hv htd, ih, uni_chr (by omega), uni_chr (by omega), uni_chr (by omega), h4, ← hd]

/-- C28.  Composition does not change what a text decomposes to. -/
theorem C28_equivalent (ds : List Datum) (hc : ∀ d ∈ ds, (isL d || isV d || isT d) = true → d = uniDatum (chr d)) :
    decomposed (composed ds) = decomposed ds := by
  have syl : ∀ l v t : Nat, 0x1100 ≤ l ∧ l ≤ 0x1112 → 0x1161 ≤ v ∧ v ≤ 0x1175 → 0x11A7 ≤ t ∧ t ≤ 0x11C2 →
      isS (uniDatum (syllable l v t)) = true ∧ chr (uniDatum (syllable l v t)) = syllable l v t ∧
      jamo (syllable l v t) = if t = 0x11A7 then [l, v] else [l, v, t] := by
    intro l v t h1 h2 h3
    have hs : 0xAC00 ≤ syllable l v t ∧ syllable l v t ≤ 0xD7A3 := by unfold syllable; omega
    refine ⟨by rw [isS, uni_class (by omega)]; simpa using hs, uni_chr (by omega), ?_⟩
    have e1 : 0x1100 + (syllable l v t - 0xAC00) / 588 = l := by unfold syllable; omega
    have e2 : 0x1161 + (syllable l v t - 0xAC00) % 588 / 28 = v := by unfold syllable; omega
    have e3 : 0x11A7 + (syllable l v t - 0xAC00) % 28 = t := by unfold syllable; omega
    simp only [jamo, e1, e2, e3]
  have notS : ∀ d : Datum, (isL d || isV d || isT d) = true → isS d = false := by
    intro d hd
    unfold isL isV isT isS within at *
    split at hd
    · rename_i u hu
      simp only [Bool.or_eq_true, decide_eq_true_eq] at hd
      simp only [decide_eq_false_iff_not]
      omega
    · simp at hd
  have keep : ∀ d : Datum, ∀ x, isS d = false → decomposed (d :: x) = d :: decomposed x := by
    intro d x h; simp [decomposed, h]
  have main : ∀ n, ∀ ds : List Datum, ds.length ≤ n →
      (∀ d ∈ ds, (isL d || isV d || isT d) = true → d = uniDatum (chr d)) → decomposed (composed ds) = decomposed ds := by
    intro n
    induction n with
    | zero => intro ds h _; obtain rfl : ds = [] := List.eq_nil_of_length_eq_zero (by omega); rfl
    | succ n ih =>
      intro ds hlen hc
      match ds with
      | [] => rfl
      | d :: ds =>
        have ihds := fun (h : ds.length ≤ n) => ih ds h (fun x hx => hc x (by simp [hx]))
        simp only [List.length_cons] at hlen
        cases hL : isL d with
        | false =>
          rw [composed_one hL]
          simp only [decomposed, List.flatMap_cons] at ihds ⊢
          rw [ihds (by omega)]
        | true =>
          have hdc := hc d (by simp) (by simp [hL])
          have hns := notS d (by simp [hL])
          have hlr := isL_chr hL
          match ds with
          | [] => simp [composed, hL, ← hdc]
          | v :: ds =>
            cases hV : isV v with
            | false =>
              rw [composed_L hV hL, ← hdc, keep _ _ hns, keep _ _ hns, ihds (by omega)]
            | true =>
              have hvr := isV_chr hV
              have hvc := hc v (by simp) (by simp [hV])
              have hvn := notS v (by simp [hV])
              simp only [List.length_cons] at hlen
              rw [keep _ _ hns, keep _ _ hvn]
              match ds with
              | [] =>
                obtain ⟨a, b, c⟩ := syl (chr d) (chr v) 0x11A7 hlr hvr (by omega)
                have e : composed [d, v] = [uniDatum (syllable (chr d) (chr v) 0x11A7)] := by simp [composed, hL, hV]
                rw [e]
                simp only [decomposed, List.flatMap_cons, List.flatMap_nil, a, b, c, if_true, List.map_cons, List.map_nil, List.append_nil]
                rw [← hdc, ← hvc]
              | t :: ds =>
                cases hT : isT t with
                | false =>
                  obtain ⟨a, b, c⟩ := syl (chr d) (chr v) 0x11A7 hlr hvr (by omega)
                  rw [composed_LV hL hV hT, ← ih (t :: ds) (by simp only [List.length_cons] at hlen ⊢; omega) (fun x hx => hc x (List.mem_cons_of_mem _ (List.mem_cons_of_mem _ hx)))]
                  simp only [decomposed, List.flatMap_cons, a, b, c, if_true, List.map_cons, List.map_nil, List.cons_append, List.nil_append]
                  rw [← hdc, ← hvc]
                | true =>
                  have htr := isT_chr hT
                  have htc := hc t (by simp) (by simp [hT])
                  have htn := notS t (by simp [hT])
                  obtain ⟨a, b, c⟩ := syl (chr d) (chr v) (chr t) hlr hvr (by omega)
                  rw [if_neg (by omega)] at c
                  rw [composed_LVT hL hV hT, keep _ _ htn, ← ih ds (by simp only [List.length_cons] at hlen; omega) (fun x hx => hc x (by simp [hx]))]
                  simp only [decomposed, List.flatMap_cons, a, b, c, if_true, List.map_cons, List.map_nil, List.cons_append, List.nil_append]
                  rw [← hdc, ← hvc, ← htc]
  exact main ds.length ds (Nat.le_refl _) hc

/-- C28.  Both phases, one after the other, anywhere in a conversion: a text without conjoining jamo comes out as it
went in. -/
theorem C28_round_trip {s1 s2 : Static π} (h : Placed2 st ip ins pre s1 s2 post) {e1 : Lens π Unit}
    {e2 : Lens π Hangul} (hs1 : Only s1 .inter (plain e1 hangulDecompose)) (hs2 : Only s2 .inter (flushing e2 hangulCompose))
    (hi : ∀ x, e2.get (ip (pre.length + 2) 0 x) = { (e2.get x) with status := 0 })
    (text : List Datum) (hu : ∀ d ∈ text, char? d ≠ none) (hj : ∀ d ∈ text, notJamo d = true)
    (hc : ∀ d ∈ text, isS d = true → d = uniDatum (chr d)) :
    Converts st ip ins (pre ++ { out := decomposed, ok := fun ds => nonEmpty ds = text ∧ ds = text } ::
      { out := fun _ => text, ok := fun ds => ds = decomposed text } :: post) := by
  have hlen : pre.length + 2 ≤ ins.phasen := by have := h.phasen; omega
  have hne : ∀ d ∈ decomposed text, d ≠ [] := by
    intro d hd
    simp only [decomposed, List.mem_flatMap] at hd
    obtain ⟨x, hx, hd⟩ := hd
    split at hd
    · obtain ⟨n, _, rfl⟩ := List.mem_map.1 hd
      simp [uniDatum]
    · simp only [List.mem_cons, List.not_mem_nil, or_false] at hd
      subst hd
      rintro rfl
      exact hu [] hx rfl
  have hnt : nonEmpty (decomposed text) = decomposed text := by
    rw [nonEmpty, List.filter_eq_self]
    intro d hd
    cases d with
    | nil => exact absurd rfl (hne _ hd)
    | cons _ _ => rfl
  have r2 : Realises s2 (fun q => q = initPriv st ip ins (pre.length + 2))
      { out := fun _ => text, ok := fun ds => ds = decomposed text } := by
    refine single_real (single_flushing hs2 (by simp)) sound_compose
      (initPriv_get hlen (by omega) e2 (fun x => { x with status := 0 }) hi) trivial rfl ?_
    intro ds hb hk
    have hk' : ds = decomposed text := hk
    rw [passes_inter hs2, hk', hnt]
    subst hk'
    refine ⟨rfl, ?_, by simp, fun _ _ => trivial⟩
    rw [(run_compose _ hb).1, C28_inverse text hj hc]
  refine single_converts (h.first r2 rfl) (single_plain hs1 (by simp) (fun _ => rfl)) sound_decompose rfl trivial rfl ?_
  rintro ds hb ⟨hk, rfl⟩
  have := run_decompose (passes s1) ds hb hu
  rw [show e1.get (initPriv st ip ins (pre.length + 1) 0) = () from rfl, hk, this]
  exact ⟨rfl, rfl, by simp, fun _ _ => trivial⟩

/-- C62 fails: `_NF-HANGUL-DECOMPOSITION`, hence `NFD` and `NFC`, drops data that are not unicode data, without
counting them. -/
theorem C62_violated :
    ∃ ds ins', Session (fun _ => onePhase .inter (plain (Lens.self Unit) hangulDecompose))
      ((solo ()).init (fun _ => onePhase .inter (plain (Lens.self Unit) hangulDecompose)) (fun _ _ x => x))
      (twoCalls [1, 0x41] [3, 0x42]) ds ins' ∧ nonEmpty ins'.pending = [[1, 0x41]] ∧ ins'.oerr = 0 ∧ ins'.ierr = 0 := by
  have h : Converts (fun _ => onePhase .inter (plain (Lens.self Unit) hangulDecompose)) (fun _ _ x => x)
      (solo ()) [{ out := fun ds => (hangulDecompose.run true false () (nonEmpty ds)).out }] :=
    single_converts (placed_solo _ (fun _ _ x => x) ()) (single_plain (only_one _ _) (by simp) (fun _ => rfl))
      sound_decompose (t := ()) rfl trivial rfl (fun ds _ _ => ⟨rfl, rfl, rfl, fun _ _ => trivial⟩)
  obtain ⟨ds, ins', a, _, b, c, d, _⟩ := h [⟨some [1, 0x41], false, .hold⟩] ⟨some [3, 0x42], true, .hold⟩ (by simp) rfl (by simp)
    (by simp only [List.cons_append, List.nil_append, List.mem_cons, List.not_mem_nil, or_false]
        rintro _ (rfl | rfl) c hc
        · simp only [Option.mem_def, Option.some.injEq] at hc; subst hc; decide
        · simp only [Option.mem_def, Option.some.injEq] at hc; subst hc; decide) [[1, 0x41], [3, 0x42]] rfl
    ⟨.inl rfl, trivial, trivial⟩
  exact ⟨ds, ins', a, (b (by simp)).trans (by decide), by rw [d]; rfl, by rw [c]; rfl⟩

/-- C62.  Composition and canonical ordering do keep other data, in place. -/
theorem C62_compose {d : Datum} (hd : IsBytes d) (h : char? d = none) (ds : List Datum) :
    composed (d :: ds) = d :: composed ds := composed_one (by rw [isL, within_none h]) ds

end hangul

/-! ### C29: canonical ordering -/

theorem enqueue_split (c : Int) (d : Datum) (a b : List (Int × Datum)) (ha : ∀ p ∈ a, p.1 ≤ c) (hb : ∀ p ∈ b, c < p.1) :
    enqueue c d (a ++ b) = a ++ (c, d) :: b := by
  have h1 : ∀ p ∈ b.reverse, decide (c < p.1) = true := by
    intro p hp; simpa using hb p (by simpa using hp)
  have h2 : ∀ l : List (Int × Datum), (∀ p ∈ l, p.1 ≤ c) → l.dropWhile (fun p => decide (c < p.1)) = l ∧
      l.takeWhile (fun p => decide (c < p.1)) = [] := by
    intro l hl
    match l with
    | [] => exact ⟨rfl, rfl⟩
    | p :: l =>
      have := hl p (by simp)
      have hn : decide (c < p.1) = false := by simp; omega
      exact ⟨by rw [List.dropWhile_cons_of_neg (by rw [hn]; simp)], by rw [List.takeWhile_cons_of_neg (by rw [hn]; simp)]⟩
  obtain ⟨h3, h4⟩ := h2 a.reverse (fun p hp => ha p (by simpa using hp))
  unfold enqueue
  rw [List.reverse_append, List.dropWhile_append_of_pos h1, List.takeWhile_append_of_pos h1, h3, h4]
  simp

theorem ccc_bounds : ∀ r ∈ Range.cccTable, 0 < r.val ∧ r.val < 256 := by
  have h : Range.cccTable.all (fun r => decide (0 < r.val ∧ r.val < 256)) = true := by decide +kernel
  intro r hr
  simpa using List.all_eq_true.1 h r hr

theorem ccc_eq {d : Datum} (hd : IsBytes d) : ccc d = (combining d : Int) ∧ combining d < 256 := by
  rw [ccc, combining, row_valueIn ccc_ordered hd]
  cases hv : valueIn Range.cccTable d with
  | none => simp
  | some v =>
    simp only [valueIn, Option.bind_eq_some_iff, Option.map_eq_some_iff] at hv
    obtain ⟨u, _, r, hr, rfl⟩ := hv
    have := ccc_bounds r (List.mem_of_find?_eq_some hr)
    simp only [Option.getD_some]
    omega

/-- The queue that stands for a run. -/
def tagged (l : List Datum) : List (Int × Datum) := l.map fun d => ((combining d : Int), d)

theorem enqueue_byClass {d : Datum} (hd : combining d < 256) (r : List Datum) :
    enqueue (combining d) d (tagged (byClass combining r)) = tagged (byClass combining (r ++ [d])) := by
  have split : ∀ r, byClass combining r =
      ((List.range (combining d)).flatMap fun c => r.filter fun x => combining x == c) ++
      (r.filter fun x => combining x == combining d) ++
      ((List.range (255 - combining d)).flatMap fun c => r.filter fun x => combining x == combining d + 1 + c) := by
    intro r
    have e : 256 = (combining d + 1) + (255 - combining d) := by omega
    rw [byClass, e, List.range_add, List.range_succ, List.flatMap_append, List.flatMap_append, List.flatMap_map]
    simp
  have tag : ∀ a b, tagged (a ++ b) = tagged a ++ tagged b := fun a b => by simp [tagged]
  have low : ∀ n, n ≤ combining d → ((List.range n).flatMap fun c => (r ++ [d]).filter fun x => combining x == c) =
      (List.range n).flatMap fun c => r.filter fun x => combining x == c := by
    intro n hn
    induction n with
    | zero => rfl
    | succ n ih =>
      rw [List.range_succ, List.flatMap_append, List.flatMap_append, ih (by omega)]
      simp only [List.flatMap_cons, List.flatMap_nil, List.append_nil, List.filter_append]
      have : ([d].filter fun x => combining x == n) = [] := by
        rw [List.filter_eq_nil_iff]; intro a ha; simp only [List.mem_cons, List.not_mem_nil, or_false] at ha; subst ha; simp; omega
      rw [this, List.append_nil]
  have high : ∀ n, ((List.range n).flatMap fun c => (r ++ [d]).filter fun x => combining x == combining d + 1 + c) =
      (List.range n).flatMap fun c => r.filter fun x => combining x == combining d + 1 + c := by
    intro n
    induction n with
    | zero => rfl
    | succ n ih =>
      rw [List.range_succ, List.flatMap_append, List.flatMap_append, ih]
      simp only [List.flatMap_cons, List.flatMap_nil, List.append_nil, List.filter_append]
      have : ([d].filter fun x => combining x == combining d + 1 + n) = [] := by
        rw [List.filter_eq_nil_iff]; intro a ha; simp only [List.mem_cons, List.not_mem_nil, or_false] at ha; subst ha; simp; omega
      rw [this, List.append_nil]
  rw [split (r ++ [d]), split r, low _ (Nat.le_refl _), high, tag, enqueue_split]
  · simp only [List.filter_append, tag]
    have : ([d].filter fun x => combining x == combining d) = [d] := by simp
    rw [this]
    simp [tagged]
  · intro p hp
    simp only [tagged, List.mem_map, List.mem_append, List.mem_flatMap, List.mem_range, List.mem_filter, beq_iff_eq] at hp
    obtain ⟨x, (⟨c, hc, _, hx⟩ | ⟨_, hx⟩), rfl⟩ := hp <;> simp only <;> omega
  · intro p hp
    simp only [tagged, List.mem_map, List.mem_flatMap, List.mem_range, List.mem_filter, beq_iff_eq] at hp
    obtain ⟨x, ⟨c, hc, _, hx⟩, rfl⟩ := hp
    simp only; omega

theorem byClass_nil (cls : Datum → Nat) : byClass cls [] = [] := by simp [byClass]

theorem byClass_bytes {cls : Datum → Nat} {r : List Datum} (hr : AllBytes r) : AllBytes (byClass cls r) := by
  intro x hx
  simp only [byClass, List.mem_flatMap, List.mem_filter] at hx
  obtain ⟨_, _, hx, _⟩ := hx
  exact hr x hx

theorem run_order (ps : Bool) (ds : List Datum) (hb : AllBytes ds) : ∀ (w : Bool) (r : List Datum),
    (w = false → r = []) →
    order.run ps w (tagged (byClass combining r)) ds = ⟨reorderFrom combining r ds, 0, []⟩ := by
  have hmap : ∀ l, (tagged l).map Prod.snd = l := by intro l; simp [tagged, Function.comp_def]
  induction ds with
  | nil =>
    intro w r hw
    cases w with
    | false =>
      rw [hw rfl]
      simp [Handler.run, reorderFrom, byClass_nil, tagged]
    | true => simp only [Handler.run, order, reorderFrom, hmap]
  | cons d ds ih =>
    intro w r hw
    obtain ⟨hc, hc2⟩ := ccc_eq (hb d (by simp))
    have ih := ih (fun x hx => hb x (by simp [hx]))
    rw [reorderFrom]
    by_cases h0 : combining d = 0
    · have ha : order.act (tagged (byClass combining r)) d = some ([], byClass combining r ++ [d], false) := by
        simp only [order, hc, h0, hmap]; rfl
      have := ih false [] (fun _ => rfl)
      rw [byClass_nil] at this
      rw [Handler.run_some ha, if_pos h0, show ([] : List (Int × Datum)) = tagged [] from rfl, this]
      simp [Out.after, tagged]
    · have ha : order.act (tagged (byClass combining r)) d = some (tagged (byClass combining (r ++ [d])), [], true) := by
        have : ¬ ((combining d : Int) = 0) := by omega
        simp only [order, hc, this, if_false, enqueue_byClass hc2]
      rw [Handler.run_some ha, if_neg h0, ih true (r ++ [d]) (by simp)]
      rfl

theorem enqueue_mem {c : Int} {d : Datum} {q : List (Int × Datum)} {p : Int × Datum} (h : p ∈ enqueue c d q) :
    p = (c, d) ∨ p ∈ q := by
  simp only [enqueue, List.mem_append, List.mem_reverse, List.mem_cons] at h
  rcases h with h | h | h
  · exact .inr (by simpa using (List.dropWhile_suffix _).mem h)
  · exact .inl h
  · exact .inr (by simpa using (List.takeWhile_prefix _).mem h)

theorem sound_order : Sound order (fun q => ∀ p ∈ q, IsBytes p.2) where
  act := by
    intro q d hq _ hd q' out b h
    simp only [order] at h
    split at h <;> simp only [Option.some.injEq, Prod.mk.injEq] at h <;> obtain ⟨rfl, rfl, rfl⟩ := h
    · refine ⟨by simp, ?_, by simp⟩
      intro x hx
      simp only [List.mem_append, List.mem_map, List.mem_cons, List.not_mem_nil, or_false] at hx
      rcases hx with ⟨p, hp, rfl⟩ | rfl
      · exact hq p hp
      · exact hd
    · refine ⟨?_, by simp, ?_⟩
      · intro p hp
        rcases enqueue_mem hp with rfl | hp
        · exact hd
        · exact hq p hp
      · intro _ d' _ _
        simp only [order]
        split <;> simp
  flush := by
    intro q hq
    refine ⟨by simp [order], ?_⟩
    intro x hx
    simp only [order, List.mem_map] at hx
    obtain ⟨p, hp, rfl⟩ := hx
    exact hq p hp

variable {st : Nat → Static π} {ip : Nat → Nat → π → π} {ins : Ins π} {pre post : List (Proc π)} {s : Static π}

/-- C29.  A phase `_NF-ORDER` sorts every maximal run of data of non-zero combining class stably by class and leaves
the other data in their places (`reorder_run`, `reorder_last`, `byClass_sorted`, `byClass_stable` in
Spec/Ordering.lean).  There is no `cbinit`: the queue must be empty when the conversion starts. -/
theorem C29_order (h : Placed st ip ins pre s post) {e : Lens π (List (Int × Datum))}
    (hs : Only s .inter (flushing e order)) (hi : ∀ x, ip (pre.length + 1) 0 x = x)
    (hq : e.get ((ins.ph (pre.length + 1)).priv 0) = []) :
    Converts st ip ins (pre ++ {
      out := fun ds => reorder combining (nonEmpty ds)
      fin := fun _ q => e.get (q 0) = [] } :: post) := by
  refine single_converts h (single_flushing hs (by simp)) sound_order
    ((initPriv_get (placed_le h) (by omega) e id (fun x => by rw [hi]; rfl)).trans hq) (by simp) rfl ?_
  intro ds hb _
  have := run_order (passes s) _ (nonEmpty_bytes hb).1 false [] (fun _ => rfl)
  rw [byClass_nil, show tagged [] = [] from rfl] at this
  rw [this]
  exact ⟨rfl, rfl, by simp, fun q hq => hq⟩

/-- C29.  Nothing is lost or invented. -/
theorem C29_permutation (ds : List Datum) (hb : AllBytes ds) : (reorder combining ds).Perm ds := by
  have step : ∀ (ds : List Datum), AllBytes ds → ∀ r, AllBytes r → (reorderFrom combining r ds).Perm (r ++ ds) := by
    have bucket : ∀ r, AllBytes r → (byClass combining r).Perm r := by
      intro r hr
      have inj : ∀ l : List Datum, (tagged l).map Prod.snd = l := by intro l; simp [tagged, Function.comp_def]
      suffices h : ∀ n, ∀ l : List Datum, l.length = n → AllBytes l → (byClass combining l).Perm l from h _ r rfl hr
      intro n
      induction n with
      | zero => intro l hl _; obtain rfl := List.eq_nil_of_length_eq_zero hl; rw [byClass_nil]
      | succ n ih =>
        intro l hl hb
        have hne : l ≠ [] := by rintro rfl; simp at hl
        obtain ⟨l', d, rfl⟩ : ∃ l' d, l = l' ++ [d] := ⟨l.dropLast, l.getLast hne, (List.dropLast_concat_getLast hne).symm⟩
        have hd := (ccc_eq (hb d (by simp))).2
        have h1 := ih l' (by simpa using hl) (fun x hx => hb x (by simp [hx]))
        have h2 := congrArg (List.map Prod.snd) (enqueue_byClass hd l')
        rw [inj] at h2
        rw [← h2]
        refine List.Perm.trans ?_ (List.Perm.append_right [d] h1)
        have h3 : (enqueue (combining d) d (tagged (byClass combining l'))).Perm
            ((combining d, d) :: tagged (byClass combining l')) := by
          unfold enqueue
          refine List.perm_middle.trans (List.Perm.cons _ ?_)
          rw [← List.reverse_append, List.takeWhile_append_dropWhile, List.reverse_reverse]
        refine (h3.map Prod.snd).trans ?_
        rw [List.map_cons, inj]
        exact (List.perm_append_singleton d _).symm
    intro ds
    induction ds with
    | nil => intro _ r hr; rw [reorderFrom, List.append_nil]; exact bucket r hr
    | cons d ds ih =>
      intro hb r hr
      have hbs : AllBytes ds := fun x hx => hb x (by simp [hx])
      rw [reorderFrom]
      split
      · exact (bucket r hr).append (List.Perm.cons _ (ih hbs [] (by intro x hx; simp at hx)))
      · have := ih hbs (r ++ [d]) (by
          intro x hx
          simp only [List.mem_append, List.mem_cons, List.not_mem_nil, or_false] at hx
          rcases hx with hx | rfl
          · exact hr x hx
          · exact hb x (by simp))
        simpa using this
  exact step ds hb [] (by intro x hx; simp at hx)

/-- The acute (230) and the dot below (220) after an `a`, fed in two calls after a flushed `a`. -/
example : ∃ ds ins', Session (fun _ => onePhase .inter (flushing (Lens.self _) order))
      ((solo []).init (fun _ => onePhase .inter (flushing (Lens.self _) order)) (fun _ _ x => x))
      (twoCalls [1, 0x03, 0x01] [1, 0x03, 0x23]) ds ins' ∧
    nonEmpty ins'.pending = [[1, 0x03, 0x23], [1, 0x03, 0x01]] := by
  obtain ⟨ds, ins', a, b, _⟩ := two_calls (C29_order (placed_solo (π := List (Int × Datum)) _ (fun _ _ x => x) [])
      (only_one .inter (flushing (Lens.self _) order)) (fun _ => rfl) rfl)
    (x := [1, 0x03, 0x01]) (y := [1, 0x03, 0x23]) (by decide) (by decide) ⟨rfl, trivial⟩
  exact ⟨ds, ins', a, b.trans (by decide +kernel)⟩

/-- Hangul: a syllable decomposes, its jamo compose. -/
example : (∃ ds ins', Session (fun _ => onePhase .inter (plain (Lens.self Unit) hangulDecompose))
      ((solo ()).init (fun _ => onePhase .inter (plain (Lens.self Unit) hangulDecompose)) (fun _ _ x => x))
      (twoCalls [1, 0xD5, 0x5C] [1, 0x41]) ds ins' ∧
      nonEmpty ins'.pending = [[1, 0x11, 0x12], [1, 0x11, 0x61], [1, 0x11, 0xAB], [1, 0x41]]) ∧
    (∃ ds ins', Session (fun _ => onePhase .inter (flushing (Lens.self Hangul) hangulCompose))
      ((solo ⟨0, 0⟩).init (fun _ => onePhase .inter (flushing (Lens.self Hangul) hangulCompose)) (fun _ _ x => { x with status := 0 }))
      (twoCalls [1, 0x11, 0x12] [1, 0x11, 0x61]) ds ins' ∧
      nonEmpty ins'.pending = [[1, 0xD5, 0x58]]) := by
  constructor
  · obtain ⟨ds, ins', a, b, _⟩ := two_calls (C28_decompose (placed_solo (π := Unit) _ (fun _ _ x => x) ())
      (only_one .inter (plain (Lens.self Unit) hangulDecompose)))
      (x := [1, 0xD5, 0x5C]) (y := [1, 0x41]) (by decide) (by decide) ⟨rfl, by decide⟩
    exact ⟨ds, ins', a, b.trans (by decide +kernel)⟩
  · obtain ⟨ds, ins', a, b, _⟩ := two_calls (C28_compose (placed_solo (π := Hangul) _ (fun _ _ x => { x with status := 0 }) ⟨0, 0⟩)
      (only_one .inter (flushing (Lens.self Hangul) hangulCompose)) (fun _ => rfl))
      (x := [1, 0x11, 0x12]) (y := [1, 0x11, 0x61]) (by decide) (by decide) ⟨rfl, trivial⟩
    exact ⟨ds, ins', a, b.trans (by decide +kernel)⟩

/-- A text for `C28_inverse` and `C28_round_trip`. -/
example : (∀ d ∈ [[1, 0xD5, 0x5C], [1, 0x41], [1, 0xAC, 0x00]], notJamo d = true) ∧
    (∀ d ∈ [[1, 0xD5, 0x5C], [1, 0x41], [1, 0xAC, 0x00]], isS d = true → d = uniDatum (chr d)) ∧
    decomposed [[1, 0xD5, 0x5C], [1, 0x41]] = [[1, 0x11, 0x12], [1, 0x11, 0x61], [1, 0x11, 0xAB], [1, 0x41]] := by
  refine ⟨by decide +kernel, by decide +kernel, by decide +kernel⟩

end Verif.Props
