import Verif.Model.IbmMixed
import Verif.Props.Charset
import Verif.Props.Ebcdic
import Verif.Props.Bytes
/-
C107: from checks of the tables to what C40 asks for.
-/
namespace Verif.Props.Mixed
open Verif.Spec Verif.IbmMixed
open Verif.Engine hiding Datum step

/-- The character of a code. -/
def char (p : Page) (c : Nat) : Option Nat := p.set.reads.find c

/-- The code of a character. -/
def code (p : Page) (cp : Nat) : Option Nat := p.set.writes.find cp

/-- What is checked of a page: every code and every character once, codes of one or two bytes with no shift code in front, and the shift codes. -/
def shape (p : Page) : Bool :=
  Chart.rising 0 p.set.reads && Chart.rising 0 p.set.writes &&
    p.set.reads.all (fun r => Nat.blt 0 r.1 && (Nat.ble (r.1 + r.2.length) 0x100 || (Nat.ble 0x1000 r.1 && Nat.ble (r.1 + r.2.length) 0x10000)) && r.2.all goodChar) &&
    p.set.writes.all (fun r => goodChars r.1 r.2.length && r.2.all fun c => Nat.blt 0 c && (Nat.blt c 0x100 || (Nat.ble 0x1000 c && Nat.blt c 0x10000))) &&
    Nat.ble (p.set.reads.map fun r => r.2.length).sum 60000 && Nat.ble (p.set.writes.map fun r => r.2.length).sum 60000 &&
    p.set.reads.pairs.all (fun r => Nat.ble 0x10 r.2 || Nat.blt r.2 0x0E || Nat.beq r.1 r.2) &&
    (char p 0x0E == some 0x0E && char p 0x0F == some 0x0F)

/-- The codes. -/
def IsCode (c : Nat) : Prop := 0 < c ∧ (c < 0x100 ∨ (0x1000 ≤ c ∧ c < 0x10000))

variable {p : Page}

theorem beq_no {a b : Nat} (e : a ≠ b) : Nat.beq a b = false := by
  cases h : Nat.beq a b with
  | false => rfl
  | true => exact absurd (Nat.eq_of_beq_eq_true h) e

theorem reads_ok (h : shape p = true) : p.set.reads.pairs.Pairwise (fun a b => a.1 < b.1) ∧ ∀ r ∈ p.set.reads.pairs, IsCode r.1 ∧ Scalar r.2 := by
  unfold shape at h
  simp only [Bool.and_eq_true] at h
  obtain ⟨⟨⟨⟨⟨⟨⟨h1, _⟩, h2⟩, _⟩, _⟩, _⟩, _⟩, _⟩ := h
  refine ⟨(Chart.rising_pairwise h1).1, ?_⟩
  intro r hr
  obtain ⟨q, hq, hr⟩ := List.mem_flatMap.1 hr
  have := List.all_eq_true.1 h2 q hq
  simp only [Bool.and_eq_true, Bool.or_eq_true, Nat.ble_eq, Nat.blt_eq] at this
  have hl := Chart.run_lt hr
  exact ⟨by unfold IsCode; omega, goodChar_iff (run_vals this.2 r hr)⟩

theorem writes_ok (h : shape p = true) : p.set.writes.pairs.Pairwise (fun a b => a.1 < b.1) ∧ ∀ r ∈ p.set.writes.pairs, Scalar r.1 ∧ IsCode r.2 := by
  unfold shape at h
  simp only [Bool.and_eq_true] at h
  obtain ⟨⟨⟨⟨⟨⟨⟨_, h1⟩, _⟩, h2⟩, _⟩, _⟩, _⟩, _⟩ := h
  refine ⟨(Chart.rising_pairwise h1).1, ?_⟩
  intro r hr
  obtain ⟨q, hq, hr⟩ := List.mem_flatMap.1 hr
  have := List.all_eq_true.1 h2 q hq
  simp only [goodChars, Bool.and_eq_true, Bool.or_eq_true, Nat.ble_eq, Nat.blt_eq] at this
  have hl := Chart.run_lt hr
  have hv := run_vals this.2 r hr
  simp only [Bool.and_eq_true, Bool.or_eq_true, Nat.ble_eq, Nat.blt_eq] at hv
  exact ⟨by unfold Scalar Surrogate; omega, hv⟩

theorem lengths (h : shape p = true) : p.set.reads.pairs.length ≤ 60000 ∧ p.set.writes.pairs.length ≤ 60000 := by
  unfold shape at h
  simp only [Bool.and_eq_true, Nat.ble_eq] at h
  obtain ⟨⟨⟨⟨⟨⟨⟨_, _⟩, _⟩, _⟩, h1⟩, h2⟩, _⟩, _⟩ := h
  rw [pairs_length, pairs_length]
  exact ⟨h1, h2⟩

/-- The bytes of a code. -/
theorem bytes_of {c : Nat} (h : IsCode c) : IsBytes (beBytes c) ∧ beBytes c ≠ [] ∧ (beBytes c).length ≤ 2 ∧
    (c ≠ 0x0E → c ≠ 0x0F → DbcsCode (beBytes c)) := by
  obtain ⟨k1, k2⟩ := code_bytes (c := c) (by unfold IsCode at h; omega)
  rcases k2 with ⟨_, k2⟩ | ⟨k3, k2⟩ <;> rw [k2] at k1 ⊢
  · exact ⟨k1, by simp, by simp, fun a b => .inl ⟨c, rfl, a, b⟩⟩
  · exact ⟨k1, by simp, by simp, fun _ _ => .inr ⟨_, _, rfl, by unfold IsCode at h; omega, by unfold IsCode at h; omega⟩⟩

theorem from_lookup (h : shape p = true) {c : Nat} (hc : IsCode c) : lookup (fromRules p) (beBytes c) = (char p c).map uniDatum := by
  unfold fromRules char Chart.find
  have := (reads_ok h).2
  revert this
  generalize p.set.reads.pairs = W
  intro hw
  induction W with
  | nil => rfl
  | cons r R ih =>
    rw [List.map_cons, lookup, List.find?_cons]
    by_cases e : r.1 = c
    · simp [e]
    · have ne : beBytes r.1 ≠ beBytes c := fun k => e (code_inj (by have := (hw r (by simp)).1; unfold IsCode at this; omega)
        (by unfold IsCode at hc; omega) k)
      rw [if_neg ne, beq_no e]
      exact ih fun x hx => hw x (by simp [hx])

theorem to_lookup (h : shape p = true) {cp : Nat} (hc : cp ≤ 0x10FFFF) : lookup (toRules p) (uniDatum cp) = (code p cp).map beBytes := by
  unfold toRules code Chart.find
  have := (writes_ok h).2
  revert this
  generalize p.set.writes.pairs = W
  intro hw
  induction W with
  | nil => rfl
  | cons r R ih =>
    rw [List.map_cons, lookup, List.find?_cons]
    by_cases e : r.1 = cp
    · simp [e]
    · have ne : uniDatum r.1 ≠ uniDatum cp := fun k => e (uni_inj (by have := (hw r (by simp)).1; unfold Scalar at this; omega) (by omega) k)
      rw [if_neg ne, beq_no e]
      exact ih fun x hx => hw x (by simp [hx])

theorem char_ok (h : shape p = true) {c u : Nat} (hc : char p c = some u) : IsCode c ∧ Scalar u := (reads_ok h).2 _ (Chart.find_mem hc)

theorem code_ok (h : shape p = true) {u c : Nat} (hc : code p u = some c) : Scalar u ∧ IsCode c := (writes_ok h).2 _ (Chart.find_mem hc)

theorem size_ok {cb : List Nat → Bool} {S : Rules Nat Datum} (h : ∀ r ∈ S, r.1.length ≤ 4 ∧ r.2.length ≤ 4) (hl : S.length ≤ 60000) :
    (Verif.MkTable.emit (Verif.MkTable.build (markedLines cb S))).offset < 4294967296 := by
  have := C50_size (markedLines cb S) 4 240000 ?_ ?_ ?_
  · unfold imageSize at this
    omega
  · intro r hr
    obtain ⟨r0, _, rfl⟩ := List.mem_map.1 hr
    exact ⟨rfl, _, rfl⟩
  · have key : ∀ rs : Rules Nat Datum, (∀ r ∈ rs, r ∈ S) → ((markedLines cb rs).map fun r => r.pat.length).sum ≤ rs.length * 4 := by
      intro rs
      induction rs with
      | nil => intro _; simp [markedLines]
      | cons r rs ih =>
        intro hm
        have k1 := ih fun x hx => hm x (by simp [hx])
        have k2 := (h r (hm r (by simp))).1
        simp only [markedLines, List.map_cons, List.sum_cons, List.length_cons, List.length_map] at k1 ⊢
        omega
    have := key S fun _ h => h
    omega
  · intro r hr
    obtain ⟨r0, h0, rfl⟩ := List.mem_map.1 hr
    exact (h r0 h0).2

theorem from_marked (h : shape p = true) : MarkedOk (fun q => q.length == 1) (fromRules p) := by
  obtain ⟨k1, k2⟩ := reads_ok h
  refine ⟨?_, ?_, size_ok ?_ (by rw [fromRules, List.length_map]; exact (lengths h).1)⟩
  · unfold fromRules
    rw [List.pairwise_map]
    refine List.Pairwise.imp_of_mem ?_ k1
    intro a b ha hb hab e
    have ha := (k2 a ha).1
    have hb := (k2 b hb).1
    unfold IsCode at ha hb
    have := code_inj (by omega) (by omega) e
    omega
  · intro r hr
    obtain ⟨a, ha, rfl⟩ := List.mem_map.1 hr
    obtain ⟨m1, m2, _⟩ := bytes_of (k2 a ha).1
    exact ⟨m2, m1, (by simp [uniDatum]), uniDatum_bytes _⟩
  · intro r hr
    obtain ⟨a, ha, rfl⟩ := List.mem_map.1 hr
    obtain ⟨_, _, m3, _⟩ := bytes_of (k2 a ha).1
    exact ⟨by simp only; omega, scalar_length (k2 a ha).2⟩

theorem to_marked (h : shape p = true) : MarkedOk (fun _ => true) (toRules p) := by
  obtain ⟨k1, k2⟩ := writes_ok h
  refine ⟨?_, ?_, size_ok ?_ (by rw [toRules, List.length_map]; exact (lengths h).2)⟩
  · unfold toRules
    rw [List.pairwise_map]
    refine List.Pairwise.imp_of_mem ?_ k1
    intro a b ha hb hab e
    have ha := (k2 a ha).1
    have hb := (k2 b hb).1
    unfold Scalar at ha hb
    have := uni_inj (by omega) (by omega) e
    omega
  · intro r hr
    obtain ⟨a, ha, rfl⟩ := List.mem_map.1 hr
    obtain ⟨m1, m2, _⟩ := bytes_of (k2 a ha).2
    exact ⟨(by simp [uniDatum]), uniDatum_bytes _, m2, m1⟩
  · intro r hr
    obtain ⟨a, ha, rfl⟩ := List.mem_map.1 hr
    obtain ⟨_, _, m3, _⟩ := bytes_of (k2 a ha).2
    exact ⟨scalar_length (k2 a ha).1, by simp only; omega⟩

theorem shifts_ok (h : shape p = true) : ShiftRules (fromRules p) := by
  have h0 := h
  unfold shape at h0
  simp only [Bool.and_eq_true, beq_iff_eq] at h0
  obtain ⟨⟨_, h1⟩, h2, h3⟩ := h0
  have two : ∀ b, b < 0x100 → uniDatum b = [1, b] := fun b hb => by rw [uniDatum, be1 hb]
  refine ⟨?_, ?_, ?_, ?_⟩
  · have k := from_lookup h (c := 0x0E) (by unfold IsCode; omega)
    rw [be1 (by decide), h2, Option.map_some, two _ (by decide)] at k
    exact k
  · have k := from_lookup h (c := 0x0F) (by unfold IsCode; omega)
    rw [be1 (by decide), h3, Option.map_some, two _ (by decide)] at k
    exact k
  · intro b x hx n1 n2
    obtain ⟨a, ha, e⟩ := List.mem_map.1 (lookup_rule hx)
    have hv := List.all_eq_true.1 h1 a ha
    simp only [Bool.or_eq_true, Nat.ble_eq, Nat.blt_eq, Nat.beq_eq] at hv
    obtain ⟨kc, ks⟩ := (reads_ok h).2 a ha
    have e1 : beBytes a.1 = [b] := congrArg Prod.fst e
    have e2 : uniDatum a.2 = x := congrArg Prod.snd e
    have hb : a.1 = b := by
      obtain ⟨_, k⟩ := code_bytes (c := a.1) (by unfold IsCode at kc; omega)
      rcases k with ⟨_, k⟩ | ⟨_, k⟩ <;> rw [k] at e1 <;> simp at e1
      exact e1
    unfold Scalar at ks
    refine ⟨?_, ?_⟩ <;> intro k <;> rw [← e2, ← two _ (by decide)] at k <;> have := uni_inj (by omega) (by omega) k <;> omega
  · intro r hr
    obtain ⟨a, ha, rfl⟩ := List.mem_map.1 hr
    exact (bytes_of ((reads_ok h).2 a ha).1).2.2.1

theorem shift_chars (h : shape p = true) : char p 0x0E = some 0x0E ∧ char p 0x0F = some 0x0F := by
  unfold shape at h
  simp only [Bool.and_eq_true, beq_iff_eq] at h
  exact h.2

/-- The tables undo one another but for the codes and characters listed. -/
structure Inverse (p : Page) : Prop where
  back : p.set.reads.backIn p.set.writes p.lost = true
  forth : p.set.writes.backIn p.set.reads p.alt = true

theorem char_code (h : shape p = true) (hi : Inverse p) {c u : Nat} (hc : char p c = some u) (hl : c ∉ p.lost) : code p u = some c :=
  Chart.mem_find (writes_ok h).1 (backIn_mem hi.back (Chart.find_mem hc) (by have := (char_ok h hc).1; unfold IsCode at this; omega) hl)

theorem code_char (h : shape p = true) (hi : Inverse p) {c u : Nat} (hc : code p u = some c) (hl : u ∉ p.alt) : char p c = some u :=
  Chart.mem_find (reads_ok h).1 (backIn_mem hi.forth (Chart.find_mem hc) (by have := (code_ok h hc).1; unfold Scalar at this; omega) hl)

end Verif.Props.Mixed
