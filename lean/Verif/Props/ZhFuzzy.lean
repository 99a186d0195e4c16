import Verif.Props.ZhFuzzyTable
/-
C102: ZH-FUZZY-CN, ZH-FUZZY-TW, BMP-TRANS-CN, BMP-TRANS-TW.
-/
namespace Verif.Props
open Verif.Spec

/-- C102.  A text and its simplified form, its traditional form, its forms in ZHTW, KANJI, HANJA, BMP-TRANS-CN and BMP-TRANS-TW and its other fuzzy
form have the same fuzzy form, unless one of the characters listed is in it; and done twice it is as good as once. -/
theorem C102_fuzzy_partial (cps : List Nat) :
    (∀ g ∈ fuzzyCnForms, (∀ n ∈ g.2, n ∉ cps) → MapTable.fuzzyCn.apply (g.1.apply cps) = MapTable.fuzzyCn.apply cps) ∧
    (∀ g ∈ fuzzyTwForms, (∀ n ∈ g.2, n ∉ cps) → MapTable.fuzzyTw.apply (g.1.apply cps) = MapTable.fuzzyTw.apply cps) := by
  have a1 := fuzzyCn_ok1
  have a2 := fuzzyCn_ok2
  have a3 := fuzzyCn_ok3
  have b1 := fuzzyTw_ok1
  have b2 := fuzzyTw_ok2
  have b3 := fuzzyTw_ok3
  simp only [Bool.and_eq_true] at a1 a2 a3 b1 b2 b3
  constructor
  · intro g hg hx
    simp only [fuzzyCnForms, List.mem_cons, List.not_mem_nil, or_false] at hg
    rcases hg with rfl | rfl | rfl | rfl | rfl | rfl | rfl | rfl
    · exact Pages.apply_absorbs a1.1 cps hx
    · exact Pages.apply_absorbs a1.2 cps hx
    · exact Pages.apply_absorbs a2.1.1 cps hx
    · exact Pages.apply_absorbs a2.1.2 cps hx
    · exact Pages.apply_absorbs a2.2 cps hx
    · exact Pages.apply_absorbs a3.1.1 cps hx
    · exact Pages.apply_absorbs a3.1.2 cps hx
    · exact Pages.apply_absorbs a3.2 cps hx
  · intro g hg hx
    simp only [fuzzyTwForms, List.mem_cons, List.not_mem_nil, or_false] at hg
    rcases hg with rfl | rfl | rfl | rfl | rfl | rfl | rfl | rfl
    · exact Pages.apply_absorbs b1.1.1 cps hx
    · exact Pages.apply_absorbs b1.1.2 cps hx
    · exact Pages.apply_absorbs b1.2 cps hx
    · exact Pages.apply_absorbs b2.1.1 cps hx
    · exact Pages.apply_absorbs b2.1.2 cps hx
    · exact Pages.apply_absorbs b2.2 cps hx
    · exact Pages.apply_absorbs b3.1 cps hx
    · exact Pages.apply_absorbs b3.2 cps hx

/-- C102.  Texts with the same simplified form have the same fuzzy forms. -/
theorem C102_same (x y : List Nat) (h : MapTable.zhcn.apply x = MapTable.zhcn.apply y) :
    MapTable.fuzzyCn.apply x = MapTable.fuzzyCn.apply y ∧ MapTable.fuzzyTw.apply x = MapTable.fuzzyTw.apply y := by
  have k (z) := (C102_fuzzy_partial z).1 (MapTable.zhcn, []) (by simp [fuzzyCnForms]) (by simp)
  have l (z) := (C102_fuzzy_partial z).2 (MapTable.zhcn, []) (by simp [fuzzyTwForms]) (by simp)
  exact ⟨by rw [← k x, ← k y, h], by rw [← l x, ← l y, h]⟩

/-- C102.  Texts with the same traditional form in ZHTW have the same ZH-FUZZY-TW form. -/
theorem C102_same_tw (x y : List Nat) (h : MapTable.zhtw.apply x = MapTable.zhtw.apply y) : MapTable.fuzzyTw.apply x = MapTable.fuzzyTw.apply y := by
  have l (z) := (C102_fuzzy_partial z).2 (MapTable.zhtw, []) (by simp [fuzzyTwForms]) (by simp)
  rw [← l x, ← l y, h]

set_option maxRecDepth 100000 in
/-- C102 violated: the characters left out in C102_fuzzy_partial are left out with reason. -/
theorem C102_violated :
    MapTable.fuzzyCn.apply (MapTable.zhtw.apply [0xFAB7]) ≠ MapTable.fuzzyCn.apply [0xFAB7] ∧
    MapTable.fuzzyCn.apply (MapTable.kanji.apply [0x7F3A]) ≠ MapTable.fuzzyCn.apply [0x7F3A] ∧
    MapTable.fuzzyTw.apply (MapTable.fuzzyCn.apply [0x937E]) ≠ MapTable.fuzzyTw.apply [0x937E] := by decide +kernel

theorem find_lone {t : Pages} (h : lone t = true) (n : Nat) : ∃ x, (t.find n).getD [n] = [x] := by
  cases e : t.find n with
  | none => exact ⟨n, rfl⟩
  | some v =>
    have := List.all_eq_true.1 h _ (Pages.find_mem e)
    dsimp only at this
    match v, this with
    | [x], _ => exact ⟨x, rfl⟩

/-- C102.  No characters are added or taken away, and every one is replaced by itself. -/
theorem C102_length (t : Pages) (ht : t ∈ fuzzyTables) : ∃ f : Nat → Nat, ∀ cps, t.apply cps = cps.map f := by
  have h := List.all_eq_true.1 lone_rows t ht
  refine ⟨fun n => ((t.find n).getD [n]).headD 0, fun cps => ?_⟩
  unfold Pages.apply
  induction cps with
  | nil => rfl
  | cons c cps ih =>
    obtain ⟨x, hx⟩ := find_lone h c
    rw [List.flatMap_cons, List.map_cons, ih, hx]
    rfl

/-- C102.  BMP-TRANS-CN and BMP-TRANS-TW replace only characters above FFFF, by characters that are not; a character not above FFFF stays. -/
theorem C102_bmp (t : Pages) (ht : t ∈ [MapTable.bmpCn, MapTable.bmpTw]) :
    (∀ cps, (∀ n ∈ cps, n ≤ 0xFFFF) → t.apply cps = cps) ∧ ∀ n, t.apply [n] = [n] ∨ 0xFFFF < n ∧ ∃ m, t.apply [n] = [m] ∧ m ≤ 0xFFFF := by
  have h : ∀ r ∈ t.rules, toBmp r = true := by
    have := bmp_rows
    simp only [Bool.and_eq_true, List.all_eq_true] at this
    simp only [List.mem_cons, List.not_mem_nil, or_false] at ht
    rcases ht with rfl | rfl
    · exact this.1
    · exact this.2
  have key : ∀ n, (t.find n).getD [n] = [n] ∨ 0xFFFF < n ∧ ∃ m, (t.find n).getD [n] = [m] ∧ m ≤ 0xFFFF := by
    intro n
    cases e : t.find n with
    | none => exact .inl rfl
    | some v =>
      have := h _ (Pages.find_mem e)
      simp only [toBmp, Bool.and_eq_true, Nat.blt_eq] at this
      obtain ⟨h1, h2⟩ := this
      match v, h2 with
      | [x], h2 => exact .inr ⟨h1, x, rfl, by simpa using h2⟩
  constructor
  · intro cps hc
    unfold Pages.apply
    induction cps with
    | nil => rfl
    | cons c cps ih =>
      rw [List.flatMap_cons, ih fun n hn => hc n (by simp [hn])]
      rcases key c with e | ⟨e, _⟩
      · rw [e]; rfl
      · exact absurd (hc c (by simp)) (by omega)
  · intro n
    have : t.apply [n] = (t.find n).getD [n] := by simp [Pages.apply]
    rw [this]
    exact key n

/-- C102.  BMP-TRANS keeps the simplified form; BMP-TRANS-TW also keeps the one of ZHTW, and BMP-TRANS-CN does so but for three characters; and
done twice they are as good as once. -/
theorem C102_bmp_forms (cps : List Nat) :
    MapTable.zhcn.apply (MapTable.bmpCn.apply cps) = MapTable.zhcn.apply cps ∧ MapTable.zhcn.apply (MapTable.bmpTw.apply cps) = MapTable.zhcn.apply cps ∧
    MapTable.zhtw.apply (MapTable.bmpTw.apply cps) = MapTable.zhtw.apply cps ∧
    ((∀ n ∈ [0x22D03, 0x26906, 0x2F959], n ∉ cps) → MapTable.zhtw.apply (MapTable.bmpCn.apply cps) = MapTable.zhtw.apply cps) ∧
    MapTable.bmpCn.apply (MapTable.bmpCn.apply cps) = MapTable.bmpCn.apply cps ∧ MapTable.bmpTw.apply (MapTable.bmpTw.apply cps) = MapTable.bmpTw.apply cps := by
  have a1 := bmp_ok1
  have a2 := bmp_ok2
  have a3 := bmp_ok3
  simp only [Bool.and_eq_true] at a1 a2 a3
  exact ⟨Pages.apply_absorbs a2.1 cps (by simp), Pages.apply_absorbs a2.2 cps (by simp), Pages.apply_absorbs a3.1 cps (by simp),
    fun h => Pages.apply_absorbs a3.2 cps h, Pages.apply_absorbs a1.1 cps (by simp), Pages.apply_absorbs a1.2 cps (by simp)⟩

/-- C102.  The compiled files make phases as in C72. -/
theorem C102_phase {π : Type} {s : Engine.Static π} (t : Pages) (ht : t ∈ fuzzyTables) (h1 : s.type = .inter) (h2 : s.codecn = 0)
    (h3 : s.codecs 0 = Verif.MkTable.compiled π (Verif.MkTable.lines (Engine.symbolRules t.data))) : Maps s t := by
  have := List.all_eq_true.1 fuzzy_ok t ht
  rw [Bool.and_eq_true] at this
  exact C72_compiled this.1 this.2 h1 h2 h3

set_option maxRecDepth 100000 in
-- The manual page's 澀谷驛, 渋谷駅 and 涩谷驿: one text to ZH-FUZZY-CN and to ZH-FUZZY-TW.
example : MapTable.fuzzyCn.apply [0x6F80, 0x8C37, 0x9A5B] = MapTable.fuzzyCn.apply [0x6E0B, 0x8C37, 0x99C5] ∧
    MapTable.fuzzyCn.apply [0x6F80, 0x8C37, 0x9A5B] = MapTable.fuzzyCn.apply [0x6DA9, 0x8C37, 0x9A7F] ∧
    MapTable.fuzzyTw.apply [0x6F80, 0x8C37, 0x9A5B] = MapTable.fuzzyTw.apply [0x6DA9, 0x8C37, 0x9A7F] ∧
    MapTable.bmpCn.apply [0x61, 0x20003] = [0x61, 0x4E14] := by decide +kernel

end Verif.Props
