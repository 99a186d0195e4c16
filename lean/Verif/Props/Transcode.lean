import Verif.Proofs.Transcode
import Verif.Proofs.SimpleTrie
import Verif.Model.Ascii
import Verif.Props.Utf8
import Verif.Props.Utf16
/-
C63: converting text between encodings, through the whole engine.

A `Source` is an encoding the first phase may read, a `Target` one the last phase may write.
-/
namespace Verif.Props
open Verif.Spec
open Verif.Engine hiding Datum step
open Verif.Utf16 (machine16 machine32 encode16 encode32 encodeUcs2)

variable {π : Type}

/-! ### The machines put out data only at the end of a character -/

/-- What `Plain` asks of one step. -/
def Tidy {σ : Type} (J : σ → Prop) (r : σ × List Datum × Option Status) : Prop :=
  J r.1 ∧ (match r.2.2 with
    | none => r.2.1 = []
    | some .cont => r.2.1 = []
    | some .deadend => r.2.1 = []
    | some .nextphase => ∀ x ∈ r.2.1, IsBytes x
    | _ => False)

theorem Tidy.ite {σ : Type} {J : σ → Prop} {c : Prop} [Decidable c] {a b : σ × List Datum × Option Status} (ha : c → Tidy J a)
    (hb : ¬ c → Tidy J b) : Tidy J (if c then a else b) := by
  by_cases h : c
  · rw [if_pos h]; exact ha h
  · rw [if_neg h]; exact hb h

theorem Tidy.silent {σ : Type} {J : σ → Prop} {t : σ} (h : J t) : Tidy J (t, [], none) := ⟨h, rfl⟩
theorem Tidy.dead {σ : Type} {J : σ → Prop} {t : σ} (h : J t) : Tidy J (t, [], some .deadend) := ⟨h, rfl⟩

theorem Tidy.datum16 {J : Utf16.Priv → Prop} {t : Utf16.Priv} (h : J t) {l : List Nat} (hl : IsBytes l) :
    Tidy J (t, [Utf16.datum l], some .nextphase) := by
  refine ⟨h, ?_⟩
  intro x hx b hb
  simp only [List.mem_singleton] at hx
  subst hx
  rcases List.mem_cons.1 hb with rfl | hb
  · omega
  · exact hl b ((List.dropWhile_sublist _).mem hb)

/-- All fields of a UTF-16 or UTF-32 decoder are bytes. -/
def Bytes16 (t : Utf16.Priv) : Prop := t.b0 < 256 ∧ t.b1 < 256 ∧ t.b2 < 256 ∧ t.b3 < 256

theorem bytes2 {a b : Nat} (ha : a < 256) (hb : b < 256) : IsBytes [a, b] := by
  intro x hx; simp at hx; omega
theorem bytes_append {u v : List Nat} (hu : IsBytes u) (hv : IsBytes v) : IsBytes (u ++ v) := by
  intro b hb
  rcases List.mem_append.1 hb with h | h
  · exact hu b h
  · exact hv b h
theorem bytes3 {a b c : Nat} (ha : a < 256) (hb : b < 256) (hc : c < 256) : IsBytes [a, b, c] := by
  intro x hx; simp at hx; omega
theorem bytes4 {a b c d : Nat} (ha : a < 256) (hb : b < 256) (hc : c < 256) (hd : d < 256) : IsBytes [a, b, c, d] := by
  intro x hx; simp at hx; omega

theorem machine16_plain (le : Bool) : (machine16 le).Plain Bytes16 := by
  rintro ⟨s, b0, b1, b2, b3⟩ d ⟨h0, h1, h2, h3⟩ hd
  simp only at h0 h1 h2 h3
  have hor : ∀ x y, ((((x <<< 2) &&& 0xfc) ||| (y &&& 0x03)) < 256) := by
    intro x y
    exact Nat.or_lt_two_pow (n := 8) (Nat.lt_of_le_of_lt Nat.and_le_right (by omega)) (Nat.lt_of_le_of_lt Nat.and_le_right (by omega))
  show Tidy Bytes16 (Utf16.step16 le _ d)
  rcases s with _ | _ | _ | s <;> cases le
  · exact .silent ⟨hd, h1, h2, h3⟩
  · exact .silent ⟨h0, hd, h2, h3⟩
  · exact .ite (fun _ => .silent ⟨h0, hd, h2, h3⟩) (fun _ => .datum16 ⟨h0, hd, h2, h3⟩ (bytes2 h0 hd))
  · exact .ite (fun _ => .silent ⟨hd, h1, h2, h3⟩) (fun _ => .datum16 ⟨hd, h1, h2, h3⟩ (bytes2 hd h1))
  · exact .silent ⟨h0, h1, hd, h3⟩
  · exact .silent ⟨h0, h1, h2, hd⟩
  · exact .ite (fun _ => .datum16 ⟨h0, h1, h2, hd⟩ (bytes3 (Nat.mod_lt _ (by decide)) (hor _ _) hd)) (fun _ => .dead ⟨h0, h1, h2, hd⟩)
  · exact .ite (fun _ => .datum16 ⟨h0, h1, hd, h3⟩ (bytes3 (Nat.mod_lt _ (by decide)) (hor _ _) h3)) (fun _ => .dead ⟨h0, h1, hd, h3⟩)

theorem machine32_plain (le : Bool) : (machine32 le).Plain Bytes16 := by
  rintro ⟨s, b0, b1, b2, b3⟩ d ⟨h0, h1, h2, h3⟩ hd
  simp only at h0 h1 h2 h3
  show Tidy Bytes16 (Utf16.step32 le _ d)
  rcases s with _ | _ | _ | s <;> cases le
  · exact .silent ⟨hd, h1, h2, h3⟩
  · exact .silent ⟨h0, h1, h2, hd⟩
  · exact .silent ⟨h0, hd, h2, h3⟩
  · exact .silent ⟨h0, h1, hd, h3⟩
  · exact .silent ⟨h0, h1, hd, h3⟩
  · exact .silent ⟨h0, hd, h2, h3⟩
  · exact .datum16 ⟨h0, h1, h2, hd⟩ (bytes4 h0 h1 h2 hd)
  · exact .datum16 ⟨hd, h1, h2, h3⟩ (bytes4 hd h1 h2 h3)

/-- The fields of the UTF-8 decoder are bytes and no surrogate is pending. -/
def Utf8Inv (t : Utf8.Priv) : Prop := t.lead = .zero ∧ t.ucs.b0 < 256 ∧ t.ucs.b1 < 256 ∧ t.ucs.b2 < 256 ∧ t.ucs.b3 < 256

theorem utf8Inv_zero : Utf8Inv .zero := by unfold Utf8Inv Utf8.Priv.zero Utf8.Ucs.zero; decide

theorem or8_lt (a x : Nat) : Utf8.or8 a x < 256 := Nat.mod_lt _ (by decide)

theorem utf8_dead_tidy : Tidy Utf8Inv (Utf8.dead []) := ⟨utf8Inv_zero, rfl⟩

theorem utf8_commit_tidy (t : Utf8.Priv) (ht : Utf8Inv t) : Tidy Utf8Inv (Utf8.commit {} t) := by
  obtain ⟨s, L, u⟩ := t
  obtain ⟨h, h0, h1, h2, h3⟩ := ht
  simp only at h h0 h1 h2 h3
  subst h
  unfold Utf8.commit
  simp only [Bool.false_eq_true, if_false, ne_eq, not_true_eq_false]
  refine .ite (fun _ => utf8_dead_tidy) fun _ => .ite (fun _ => utf8_dead_tidy) fun _ => ?_
  unfold Utf8.pass
  refine .ite (fun _ => utf8_dead_tidy) fun _ => ⟨utf8Inv_zero, ?_⟩
  intro x hx b hb
  simp at hx
  subst hx
  unfold Utf8.datum at hb
  (repeat' split at hb) <;> simp at hb <;> omega

theorem utf8_plain : (Utf8.machine {}).Plain Utf8Inv := by
  rintro ⟨s, L, u⟩ d ⟨h, h0, h1, h2, h3⟩ hd
  simp only at h h0 h1 h2 h3
  subst h
  show Tidy Utf8Inv (Utf8.step {} _ d)
  have hlast : ∀ s, Tidy Utf8Inv (Utf8.last {} ⟨s, .zero, u⟩ d) := fun s =>
    .ite (fun _ => utf8_commit_tidy _ ⟨rfl, h0, h1, h2, or8_lt _ _⟩) (fun _ => utf8_dead_tidy)
  have hm1 : ∀ s s', Tidy Utf8Inv (Utf8.mid1 ⟨s, .zero, u⟩ d s') := fun s s' =>
    .ite (fun _ => .silent ⟨rfl, h0, h1, or8_lt _ _, or8_lt _ _⟩) (fun _ => utf8_dead_tidy)
  have hm2 : ∀ s s', Tidy Utf8Inv (Utf8.mid2 ⟨s, .zero, u⟩ d s') := fun s s' =>
    .ite (fun _ => .silent ⟨rfl, h0, or8_lt _ _, or8_lt _ _, h3⟩) (fun _ => utf8_dead_tidy)
  have hsh : ∀ u' k, Tidy Utf8Inv k → Tidy Utf8Inv (Utf8.short {} u' k) := fun u' k hk => .ite (fun _ => utf8_dead_tidy) (fun _ => hk)
  unfold Utf8.step
  simp only
  split
  · refine .ite (fun _ => utf8_dead_tidy) fun _ => .ite (fun _ => ?_) fun _ => .ite (fun _ => ?_) fun _ => .ite (fun _ => ?_) fun _ =>
      .ite (fun _ => .ite (fun _ => utf8_dead_tidy) fun _ => ?_) fun _ => .ite (fun _ => .ite (fun _ => utf8_dead_tidy) fun _ => ?_) fun _ => utf8_dead_tidy
    · exact hsh _ _ (.silent ⟨rfl, h0, h1, or8_lt _ _, or8_lt _ _⟩)
    · exact .silent ⟨rfl, h0, h1, or8_lt _ _, h3⟩
    · exact .silent ⟨rfl, h0, or8_lt _ _, h2, h3⟩
    · exact .silent ⟨rfl, or8_lt _ _, h1, h2, h3⟩
    · exact .silent ⟨rfl, or8_lt _ _, h1, h2, h3⟩
  · exact .ite (fun _ => hsh _ _ (.silent ⟨rfl, h0, h1, or8_lt _ _, or8_lt _ _⟩)) (fun _ => utf8_dead_tidy)
  · exact .ite (fun _ => hsh _ _ (.silent ⟨rfl, h0, or8_lt _ _, or8_lt _ _, h3⟩)) (fun _ => utf8_dead_tidy)
  · exact .ite (fun _ => hsh _ _ (.silent ⟨rfl, h0, or8_lt _ _, h2, h3⟩)) (fun _ => utf8_dead_tidy)
  · exact .ite (fun _ => hsh _ _ (.silent ⟨rfl, or8_lt _ _, h1, h2, h3⟩)) (fun _ => utf8_dead_tidy)
  · exact .ite (fun _ => .silent ⟨rfl, h0, or8_lt _ _, h2, h3⟩) (fun _ => utf8_dead_tidy)
  all_goals first
    | exact hlast _
    | exact hm1 _ _
    | exact hm2 _ _
    | exact utf8_dead_tidy

/-! ### The encoders put out bytes -/

theorem pad_bytes {n : Nat} {l : List Nat} (hl : IsBytes l) : IsBytes (Utf16.pad n l) := by
  intro b hb
  rcases List.mem_append.1 hb with hb | hb
  · have := (List.mem_replicate.1 hb).2; omega
  · exact hl b hb

theorem swap2_mem (l : List Nat) : ∀ b ∈ Utf16.swap2 l, b ∈ l := by
  match l with
  | [] => simp [Utf16.swap2]
  | [a] => simp [Utf16.swap2]
  | a :: b :: r =>
    intro x hx
    simp only [Utf16.swap2, List.mem_cons] at hx
    rcases hx with rfl | rfl | hx
    · simp
    · simp
    · have := swap2_mem r x hx; simp [this]

theorem drop_bytes {d : List Nat} (h : IsBytes d) (n : Nat) : IsBytes (d.drop n) := fun b hb => h b ((List.drop_sublist n d).mem hb)

theorem getD_byte {d : List Nat} (h : IsBytes d) (k : Nat) : d.getD k 0 < 256 := by
  rw [List.getD_eq_getElem?_getD]
  cases hk : d[k]? with
  | none => decide
  | some b => exact h b (List.mem_of_getElem? hk)

theorem or_byte {a b : Nat} (ha : a < 256) (hb : b < 256) : a ||| b < 256 := Nat.or_lt_two_pow (n := 8) ha hb
theorem and_byte (a : Nat) {b : Nat} (hb : b < 256) : a &&& b < 256 := Nat.lt_of_le_of_lt Nat.and_le_right hb

theorem uniEnc_some {f : Datum → Option (List Datum)} {d : Datum} {out : List Datum} (h : uniEnc f d = some out) : f d = some out := by
  unfold uniEnc at h
  split at h
  · exact h
  · exact absurd h (by simp)

theorem encode16_bytes (le : Bool) : ∀ d out, IsBytes d → uniEnc (encode16 le) d = some out → ∀ x ∈ out, IsBytes x := by
  intro d out hd h x hx
  have h := uniEnc_some h
  simp only [encode16, Option.some.injEq] at h
  subst h
  have ho : IsBytes (Utf16.out16 d) := by
    unfold Utf16.out16
    simp only
    split
    · refine bytes4 ?_ ?_ ?_ (getD_byte (drop_bytes hd 1) 2)
      · exact or_byte (by decide) (and_byte _ (by decide))
      · exact or_byte (and_byte _ (by decide)) (and_byte _ (by decide))
      · exact or_byte (by decide) (and_byte _ (by decide))
    · exact pad_bytes (drop_bytes hd 1)
  simp only [List.mem_singleton] at hx
  subst hx
  split
  · exact fun b hb => ho b (swap2_mem _ b hb)
  · exact ho

theorem encode32_bytes (le : Bool) : ∀ d out, IsBytes d → uniEnc (encode32 le) d = some out → ∀ x ∈ out, IsBytes x := by
  intro d out hd h x hx
  have h := uniEnc_some h
  simp only [encode32, Option.some.injEq] at h
  subst h
  have ho : IsBytes (Utf16.pad 4 (d.drop 1)) := pad_bytes (drop_bytes hd 1)
  simp only [List.mem_singleton] at hx
  subst hx
  split
  · exact fun b hb => ho b (List.mem_reverse.1 hb)
  · exact ho

theorem encodeUcs2_bytes (le : Bool) : ∀ d out, IsBytes d → uniEnc (encodeUcs2 le) d = some out → ∀ x ∈ out, IsBytes x := by
  intro d out hd h x hx
  have h := uniEnc_some h
  have ho : IsBytes (Utf16.pad 2 (d.drop 1)) := pad_bytes (drop_bytes hd 1)
  unfold encodeUcs2 at h
  split at h
  · exact absurd h (by simp)
  simp only [Option.some.injEq] at h
  subst h
  simp only [List.mem_singleton] at hx
  subst hx
  split
  · exact fun b hb => ho b (swap2_mem _ b hb)
  · exact ho

theorem utf8Encode_bytes : ∀ d out, IsBytes d → uniEnc Utf8.encode d = some out → ∀ x ∈ out, IsBytes x := by
  intro d out hd h x hx
  have h := uniEnc_some h
  unfold Utf8.encode at h
  have k : ∀ {l : List Nat}, some [l] = some out → IsBytes l → IsBytes x := by
    intro l h hl
    simp only [Option.some.injEq] at h
    subst h
    simp only [List.mem_singleton] at hx
    subst hx; exact hl
  split at h
  · split at h
    · exact absurd h (by simp)
    · exact k h (bytes2 (or_byte (by decide) (and_byte _ (by decide))) (or_byte (by decide) (and_byte _ (by decide))))
  · split at h
    · exact k h (bytes2 (or_byte (or_byte (by decide) (and_byte _ (by decide))) (and_byte _ (by decide))) (or_byte (by decide) (and_byte _ (by decide))))
    · exact k h (bytes3 (or_byte (by decide) (and_byte _ (by decide))) (or_byte (or_byte (by decide) (and_byte _ (by decide))) (and_byte _ (by decide)))
        (or_byte (by decide) (and_byte _ (by decide))))
  · split at h
    · exact k h (bytes4 (or_byte (by decide) (and_byte _ (by decide))) (or_byte (or_byte (by decide) (and_byte _ (by decide))) (and_byte _ (by decide)))
        (or_byte (or_byte (by decide) (and_byte _ (by decide))) (and_byte _ (by decide))) (or_byte (by decide) (and_byte _ (by decide))))
    · exact absurd h (by simp)
  · exact absurd h (by simp)

/-! ### ASCII -/

theorem fromAscii_lookup (p : List Nat) (b : List Datum) : lookup Ascii.fromRules p = some b ↔ ∃ c, 1 ≤ c ∧ c < 128 ∧ p = [c] ∧ b = [[1, c]] := by
  have key : ∀ (n : Nat), lookup ((List.range n).map fun k => (([k + 1], [[1, k + 1]]) : List Nat × List Datum)) p = some b ↔
      ∃ c, 1 ≤ c ∧ c < n + 1 ∧ p = [c] ∧ b = [[1, c]] := by
    intro n
    have gen : ∀ (l : List Nat), lookup (l.map fun k => (([k + 1], [[1, k + 1]]) : List Nat × List Datum)) p = some b ↔
        ∃ k ∈ l, p = [k + 1] ∧ b = [[1, k + 1]] := by
      intro l
      induction l with
      | nil => simp [lookup]
      | cons k l ih =>
        simp only [List.map_cons, lookup]
        split
        · rename_i he
          constructor
          · intro h; simp only [Option.some.injEq] at h; exact ⟨k, by simp, he.symm, h.symm⟩
          · rintro ⟨k', _, h1, h2⟩
            rw [h1] at he
            simp only [List.cons.injEq, Nat.add_right_cancel_iff, and_true] at he
            subst he; rw [h2]
        · rename_i he
          rw [ih]
          constructor
          · rintro ⟨k', a, c⟩; exact ⟨k', by simp [a], c⟩
          · rintro ⟨k', a, c, d⟩
            rcases List.mem_cons.1 a with rfl | a
            · exact absurd c.symm he
            · exact ⟨k', a, c, d⟩
    rw [gen]
    constructor
    · rintro ⟨k, a, c, d⟩; exact ⟨k + 1, by omega, by simpa using a, c, d⟩
    · rintro ⟨c, h1, h2, h3, h4⟩
      exact ⟨c - 1, by simp; omega, by rw [Nat.sub_add_cancel h1]; exact h3, by rw [Nat.sub_add_cancel h1]; exact h4⟩
  exact key 127

theorem fromAscii_mem {r : List Nat × List Datum} (h : r ∈ Ascii.fromRules) : ∃ c, 1 ≤ c ∧ c < 128 ∧ r = ([c], [[1, c]]) := by
  unfold Ascii.fromRules at h
  obtain ⟨k, hk, rfl⟩ := List.mem_map.1 h
  exact ⟨k + 1, by omega, by simp at hk; omega, rfl⟩

theorem fromAscii_prefixFree : PrefixFree Ascii.fromRules := by
  intro p b h
  obtain ⟨c, _, _, rfl, _⟩ := (fromAscii_lookup p b).1 h
  rw [extendable, List.any_eq_false]
  intro r hr
  obtain ⟨c', _, _, rfl⟩ := fromAscii_mem hr
  simp only [List.isPrefixOf, Bool.and_true, Bool.and_eq_true, beq_iff_eq, bne_iff_ne, ne_eq, not_and, Decidable.not_not]
  rintro rfl; rfl

theorem fromAscii_bytes (p : List Nat) (b : List Datum) (h : lookup Ascii.fromRules p = some b) : ∀ x ∈ b, IsBytes x := by
  obtain ⟨c, _, _, _, rfl⟩ := (fromAscii_lookup p b).1 h
  intro x hx
  simp only [List.mem_singleton] at hx
  subst hx
  exact bytes2 (by omega) (by omega)

theorem toAscii_good : GoodRules Ascii.toRules ∧ ∀ r ∈ Ascii.toRules, r.1.length ≤ 1 := by
  constructor
  · intro r hr
    unfold Ascii.toRules at hr
    rcases List.mem_append.1 hr with hr | hr
    · obtain ⟨k, hk, rfl⟩ := List.mem_map.1 hr
      simp only [List.mem_range] at hk
      refine ⟨by simp, ?_, by simp, ?_⟩
      · intro d hd; simp only [List.mem_singleton] at hd; subst hd; exact ⟨by simp, bytes2 (by omega) (by omega)⟩
      · intro d hd; simp only [List.mem_singleton] at hd; subst hd; exact ⟨by simp, by intro b hb; simp at hb; omega⟩
    · simp only [List.mem_singleton] at hr
      subst hr
      refine ⟨by simp, ?_, by simp, ?_⟩
      · intro d hd; simp only [List.mem_singleton] at hd; subst hd; exact ⟨by simp, bytes3 (by omega) (by omega) (by omega)⟩
      · intro d hd; simp only [List.mem_singleton] at hd; subst hd; exact ⟨by simp, by intro b hb; simp at hb; omega⟩
  · intro r hr
    unfold Ascii.toRules at hr
    rcases List.mem_append.1 hr with hr | hr
    · obtain ⟨k, hk, rfl⟩ := List.mem_map.1 hr; exact Nat.le_refl _
    · simp only [List.mem_singleton] at hr; subst hr; exact Nat.le_refl _

theorem toAscii_lookup (c : Nat) (h1 : 1 ≤ c) (h2 : c < 128) : lookup Ascii.toRules [[1, c]] = some [[c]] := by
  have gen : ∀ (l : List Nat) (S : Rules Datum (List Datum)), c - 1 ∈ l → lookup ((l.map fun k => (([[1, k + 1]], [[k + 1]]) : List Datum × List Datum)) ++ S) [[1, c]] = some [[c]] := by
    intro l S
    induction l with
    | nil => simp
    | cons k l ih =>
      intro hm
      simp only [List.map_cons, List.cons_append, lookup]
      split
      · rename_i he
        simp only [List.cons.injEq, and_true, true_and] at he
        rw [he]
      · rename_i he
        rcases List.mem_cons.1 hm with hm | hm
        · exact absurd (by rw [← hm, Nat.sub_add_cancel h1]) he
        · exact ih hm
  exact gen _ _ (by simp; omega)

/-- C63, to/ASCII.txt: the characters U+0001..U+007F become their byte, U+02DC becomes a tilde, there is nothing else. -/
theorem C63_ascii (ds b : List Datum) : lookup Ascii.toRules ds = some b ↔
    (∃ c, 1 ≤ c ∧ c < 128 ∧ ds = [[1, c]] ∧ b = [[c]]) ∨ (ds = [[1, 2, 0xDC]] ∧ b = [[0x7E]]) := by
  constructor
  · intro h
    obtain ⟨r, this, rfl, rfl⟩ := Engine.lookup_mem h
    unfold Ascii.toRules at this
    rcases List.mem_append.1 this with hr | hr
    · obtain ⟨k, hk, rfl⟩ := List.mem_map.1 hr
      simp only [List.mem_range] at hk
      exact .inl ⟨k + 1, by omega, by omega, rfl, rfl⟩
    · simp only [List.mem_singleton] at hr
      subst hr
      exact .inr ⟨rfl, rfl⟩
  · rintro (⟨c, h1, h2, rfl, rfl⟩ | ⟨rfl, rfl⟩)
    · exact toAscii_lookup c h1 h2
    · decide +kernel

/-! ### Tables that decode -/

theorem table_hit {R : Rules Nat (List Datum)} (hpf : PrefixFree R) {w : List Nat} {out : List Datum} (hw : lookup R w = some out) (hne : w ≠ [])
    (t : π) (rest : List Nat) : (Reader.table R : Reader π).read t [] (w ++ rest) = .done rest t out := by
  have key : ∀ (v u : List Nat), u ++ v = w → v ≠ [] → (Reader.table R : Reader π).read t u (v ++ rest) = .done rest t out := by
    intro v
    induction v with
    | nil => intro u _ h; exact absurd rfl h
    | cons b v ih =>
      intro u hu _
      rw [List.cons_append, Reader.read]
      by_cases hv : v = []
      · subst hv
        simp only [Reader.table, hu, hw, List.nil_append]
      · have hl : lookup R (u ++ [b]) = none := by
          cases hl : lookup R (u ++ [b]) with
          | none => rfl
          | some o =>
            have h := hpf _ _ hl
            obtain ⟨r, hr, e, _⟩ := single_lookup_none.lookup_some_mem hw
            rw [extendable, List.any_eq_false] at h
            have h := h r hr
            rw [e, ← hu] at h
            simp at h
            exact absurd h hv
        have ha : R.any (fun r => (u ++ [b]).isPrefixOf r.1) = true := by
          obtain ⟨r, hr, e, _⟩ := single_lookup_none.lookup_some_mem hw
          refine List.any_eq_true.2 ⟨r, hr, ?_⟩
          rw [e, ← hu, List.append_cons]
          simp
        simp only [Reader.table, hl, ha, if_true]
        exact ih (u ++ [b]) (by simp [hu]) hv
  exact key w [] rfl hne

/-! ### Encodings -/

/-- The characters: code points from U+0001 to U+10FFFF without the surrogates. -/
def Scalar (cp : Nat) : Prop := 1 ≤ cp ∧ cp ≤ 0x10FFFF ∧ ¬ Surrogate cp

/-- What the first phase may read. -/
inductive Source
  | utf8
  | utf16 (le : Bool)
  | utf32 (le : Bool)
  /-- a character set given by a table -/
  | table (enc : Nat → List Nat) (valid : Nat → Prop)

/-- What the last phase may write. -/
inductive Target
  | utf8
  | utf16 (le : Bool)
  | utf32 (le : Bool)
  | ucs2 (le : Bool)
  /-- a character set given by a table -/
  | table (enc : Nat → List Nat) (takes : Nat → Bool)

/-- The bytes of a character. -/
def Source.enc : Source → Nat → List Nat
  | .utf8 => Spec.utf8
  | .utf16 le => Props.utf16 le
  | .utf32 le => Props.utf32 le
  | .table enc _ => enc

/-- The bytes of a character. -/
def Target.enc : Target → Nat → List Nat
  | .utf8 => Spec.utf8
  | .utf16 le => Props.utf16 le
  | .utf32 le => Props.utf32 le
  | .ucs2 le => fun cp => if le then le16 cp else be16 cp
  | .table enc _ => enc

/-- The characters of a character set. -/
def Source.Has : Source → Nat → Prop
  | .table _ valid => valid
  | _ => Scalar

/-- The characters that can be written. -/
def Target.takes : Target → Nat → Bool
  | .ucs2 _ => fun cp => decide (cp < 0x10000)
  | .table _ takes => takes
  | _ => fun _ => true

/-- The phase `s`, whose codecs have the private data `p`, reads the encoding. -/
inductive Source.Is (s : Static π) (p : Nat → π) : Source → Prop
  /-- `ASCII,_UTF-8` : /repo/modules/from/UTF-8 is this alias -/
  | utf8 (e : Lens π Utf8.Priv) : TableDecoder s Ascii.fromRules e (Utf8.machine {}) → e.get (p 1) = .zero → Source.Is s p .utf8
  | utf16 (le : Bool) (e : Lens π Utf16.Priv) : DecoderPhase s e (machine16 le) → (e.get (p 0)).status = 0 → Bytes16 (e.get (p 0)) →
      Source.Is s p (.utf16 le)
  | utf32 (le : Bool) (e : Lens π Utf16.Priv) : DecoderPhase s e (machine32 le) → (e.get (p 0)).status = 0 → Bytes16 (e.get (p 0)) →
      Source.Is s p (.utf32 le)
  /-- one table, none of whose patterns begins another, with a line for every character -/
  | table (R : Rules Nat (List Datum)) (enc : Nat → List Nat) (valid : Nat → Prop) : s.type = .from_ → s.codecn = 0 → Represents (s.codecs 0) R →
      PrefixFree R → (∀ r ∈ R, ∀ x ∈ r.2, IsBytes x) →
      (∀ cp, valid cp → enc cp ≠ [] ∧ IsBytes (enc cp) ∧ lookup R (enc cp) = some [uniDatum cp]) → Source.Is s p (.table enc valid)
  /-- several tables, each of which has no pattern that begins another; the code of a character is in one of them, and the tables before have
  no pattern with its first byte -/
  | tables (Rs : Nat → Rules Nat (List Datum)) (enc : Nat → List Nat) (valid : Nat → Prop) : s.type = .from_ →
      (∀ j, j ≤ s.codecn → Represents (s.codecs j) (Rs j) ∧ PrefixFree (Rs j) ∧ ∀ r ∈ Rs j, r.2 ≠ [] ∧ ∀ x ∈ r.2, IsBytes x) →
      (∀ cp, valid cp → IsBytes (enc cp) ∧ ∃ j b u, j ≤ s.codecn ∧ enc cp = b :: u ∧ lookup (Rs j) (b :: u) = some [uniDatum cp] ∧
        ∀ i, i < j → ∀ r ∈ Rs i, ¬ [b] <+: r.1) → Source.Is s p (.table enc valid)

/-- The phase `s` writes the encoding. -/
inductive Target.Is (s : Static π) : Target → Prop
  /-- `_UTF-8,ASCII` : /repo/modules/to/UTF-8 is this alias -/
  | utf8 : s.type = .to_ → s.codecn = 1 → s.codecs 0 = Utf8.toCodec → Represents (s.codecs 1) (symbolRules Ascii.toRules) → Target.Is s .utf8
  | utf16 (le : Bool) : Only s .to_ (uniPrefix (encodeConv (encode16 le))) → Target.Is s (.utf16 le)
  | utf32 (le : Bool) : Only s .to_ (uniPrefix (encodeConv (encode32 le))) → Target.Is s (.utf32 le)
  | ucs2 (le : Bool) : Only s .to_ (uniPrefix (encodeConv (encodeUcs2 le))) → Target.Is s (.ucs2 le)
  /-- one table of single characters, with lines for the characters `takes` -/
  | table (R : Rules Datum (List Datum)) (enc : Nat → List Nat) (takes : Nat → Bool) : s.type = .to_ → s.codecn = 0 →
      Represents (s.codecs 0) (symbolRules R) → GoodRules R → (∀ r ∈ R, r.1.length ≤ 1) →
      (∀ cp, lookup R [uniDatum cp] = if takes cp then some [enc cp] else none) → Target.Is s (.table enc takes)
  /-- several tables of single characters; the first with a line for the character counts -/
  | tables (Rs : Nat → Rules Datum (List Datum)) (enc : Nat → List Nat) (takes : Nat → Bool) : s.type = .to_ →
      (∀ j, j ≤ s.codecn → Represents (s.codecs j) (symbolRules (Rs j)) ∧ GoodRules (Rs j) ∧ ∀ r ∈ Rs j, r.1.length ≤ 1) →
      (∀ cp, Scalar cp → (List.range (s.codecn + 1)).findSome? (fun j => lookup (Rs j) [uniDatum cp]) = if takes cp then some [enc cp] else none) →
      Target.Is s (.table enc takes)

theorem utf8_bytes {cp : Nat} (h : cp < 0x200000) : IsBytes (Spec.utf8 cp) ∧ Spec.utf8 cp ≠ [] := by
  constructor
  · unfold Spec.utf8
    intro b hb
    (repeat' split at hb) <;>
      simp only [utf8Form, utf8Tail, Nat.reduceSub, Nat.reducePow, Nat.pow_one, Nat.pow_zero, Nat.div_one, List.mem_cons,
        List.not_mem_nil, or_false] at hb <;> omega
  · unfold Spec.utf8 utf8Form
    (repeat' split) <;> simp

theorem utf16_bytes (le : Bool) {cp : Nat} (h : cp ≤ 0x10FFFF) : IsBytes (Props.utf16 le cp) ∧ Props.utf16 le cp ≠ [] := by
  unfold Props.utf16 utf16le utf16be utf16Units
  by_cases h1 : cp < 0x10000 <;> cases le <;> simp only [h1, if_true, if_false, Bool.false_eq_true, List.flatMap_cons, List.flatMap_nil, be16, le16,
    List.append_nil, List.cons_append, List.nil_append]
  · exact ⟨bytes2 (by omega) (by omega), by simp⟩
  · exact ⟨bytes2 (by omega) (by omega), by simp⟩
  · exact ⟨bytes4 (by omega) (by omega) (by omega) (by omega), by simp⟩
  · exact ⟨bytes4 (by omega) (by omega) (by omega) (by omega), by simp⟩

theorem utf32_bytes (le : Bool) {cp : Nat} (h : cp < 2 ^ 32) : IsBytes (Props.utf32 le cp) ∧ Props.utf32 le cp ≠ [] := by
  unfold Props.utf32 utf32le utf32be
  cases le <;> simp only [if_true, if_false, Bool.false_eq_true]
  · exact ⟨bytes4 (by omega) (by omega) (by omega) (by omega), by simp⟩
  · exact ⟨bytes4 (by omega) (by omega) (by omega) (by omega), by simp⟩

/-- A phase of tables reads any sequence of codes: each code has a line in one of the tables, and the tables before have no pattern with its
first byte. -/
theorem tables_real {s : Static π} {Rs : Nat → Rules Nat (List Datum)} (h1 : s.type = .from_)
    (h2 : ∀ j, j ≤ s.codecn → Represents (s.codecs j) (Rs j) ∧ PrefixFree (Rs j) ∧ ∀ r ∈ Rs j, r.2 ≠ [] ∧ ∀ x ∈ r.2, IsBytes x) (p : Nat → π) :
    ∃ D : Proc π, Realises s (fun q => q = p) D ∧ D.dec = true ∧ ∀ cs : List (List Nat × Nat),
      (∀ c ∈ cs, IsBytes c.1 ∧ ∃ j b u, j ≤ s.codecn ∧ c.1 = b :: u ∧ lookup (Rs j) (b :: u) = some [uniDatum c.2] ∧
        ∀ i, i < j → ∀ r ∈ Rs i, ¬ [b] <+: r.1) →
      ∀ ds, ds.flatten = cs.flatMap Prod.fst → D.out ds = textData (cs.map Prod.snd) ∧ D.inErrors ds = 0 ∧ D.outErrors ds = 0 ∧ D.ok ds := by
  have hR : Readers s (fun j => Reader.table (Rs j)) (fun _ _ => True) (fun j => AtTable (s.codecs j)) := by
    refine ⟨h1, ?_⟩
    intro j hj
    obtain ⟨k1, k2, k3⟩ := h2 j hj
    exact table_reader k1 k2 (by
      intro p b hl
      obtain ⟨r, hr, _, e⟩ := single_lookup_none.lookup_some_mem hl
      rw [← e]; exact (k3 r hr).2) _
  refine ⟨_, reader_realises hR (p := p) (fun _ => trivial), rfl, ?_⟩
  intro cs hcs ds hds
  have hsp : ∀ i, setPriv p i (p i) = p := by
    intro i
    funext k; simp only [setPriv]; split
    · rename_i h; rw [h]
    · rfl
  have one : ∀ c ∈ cs, ∀ rest, resume (fun j => Reader.table (Rs j)) s.codecn 0 p [] (c.1 ++ rest) = (p, some (rest, [uniDatum c.2])) := by
    intro c hc rest
    obtain ⟨_, j, b, u, hj, e, hl, hi⟩ := hcs c hc
    rw [e]
    have key : ∀ k i m, i + k = j → k ≤ m → resume (fun j => Reader.table (Rs j)) m i p [] (b :: u ++ rest) = (p, some (rest, [uniDatum c.2])) := by
      intro k
      induction k with
      | zero =>
        intro i m hik _
        obtain rfl : i = j := by omega
        rw [resume_eq, table_hit (h2 i hj).2.1 hl (by simp) (p i) rest]
        simp only [hsp]
      | succ k ih =>
        intro i m hik hm
        rw [resume_eq, List.cons_append, table_skip (fun r hr => hi i (by omega) r hr) (p i) (u ++ rest)]
        simp only [hsp]
        cases m with
        | zero => omega
        | succ m =>
          have := ih (i + 1) m (by omega) (by omega)
          rw [List.cons_append] at this
          exact this
    exact key j 0 s.codecn (by omega) hj
  have all : (decode (fun j => Reader.table (Rs j)) s.codecn p (cs.flatMap Prod.fst)).out = textData (cs.map Prod.snd) ∧
      (decode (fun j => Reader.table (Rs j)) s.codecn p (cs.flatMap Prod.fst)).errors = 0 := by
    clear hds
    induction cs with
    | nil => rw [List.flatMap_nil, decode_nil]; exact ⟨rfl, rfl⟩
    | cons c cs ih =>
      obtain ⟨_, _, b, u, _, e, _⟩ := hcs c (by simp)
      rw [List.flatMap_cons, (decode_some (by simp [e]) (one c (by simp) _)).1]
      obtain ⟨a, b⟩ := ih (fun c h => hcs c (by simp [h])) (fun c h => one c (by simp [h]))
      simp only [a, b, and_true]
      rfl
  simp only [decoderProc, hds]
  exact ⟨all.1, all.2, trivial, trivial⟩

/-- A phase that reads an encoding is a decoder of it. -/
theorem source_decodes {s : Static π} {p : Nat → π} {a : Source} (h : a.Is s p) :
    ∃ D : Proc π, Realises s (fun q => q = p) D ∧ Decodes D a.enc a.Has ∧ ∀ cp, a.Has cp → IsBytes (a.enc cp) := by
  cases h with
  | utf8 e h hz =>
    have hb : ∀ cp, Scalar cp → IsBytes (Spec.utf8 cp) ∧ Spec.utf8 cp ≠ [] := fun cp h => utf8_bytes (by have := h.2.1; omega)
    refine ⟨_, tableDecoder_real h fromAscii_prefixFree fromAscii_bytes utf8_plain (by rw [hz]; exact utf8Inv_zero), ?_, fun cp h => (hb cp h).1⟩
    refine decodes_of_resume (inv := fun p => e.get (p 1) = .zero) hb ?_ hz
    intro p cp rest hp hv hr
    obtain ⟨h1, h2, h3⟩ := hv
    by_cases hc : cp < 0x80
    · refine ⟨setPriv p 0 (p 0), by simpa [setPriv] using hp, ?_⟩
      have hl := (fromAscii_lookup [cp] [[1, cp]]).2 ⟨cp, h1, hc, rfl, rfl⟩
      have := table_hit fromAscii_prefixFree hl (by simp) (p 0) rest
      have e1 : Spec.utf8 cp = [cp] := by simp [Spec.utf8, hc]
      have e2 : uniDatum cp = [1, cp] := by rw [uniDatum, be1 (by omega)]
      have e3 : (tableThen Ascii.fromRules e (Utf8.machine {}) 0) = Reader.table Ascii.fromRules := rfl
      rw [e1, resume_eq, e3, this, e2]
    · have hm : Multibyte cp := ⟨by omega, by omega, h3⟩
      have hf := C13_accepts cp hm rest
      obtain ⟨b, u, hu⟩ := List.exists_cons_of_ne_nil (hb cp ⟨h1, h2, h3⟩).2
      obtain ⟨x', k1, k2⟩ := tableDecoder_resume (R := Ascii.fromRules) utf8_plain (by rw [hp]; exact utf8Inv_zero) (hb cp ⟨h1, h2, h3⟩).2
        (bytes_append (hb cp ⟨h1, h2, h3⟩).1 hr) (by
          intro r hr' b' hb' hpre
          obtain ⟨c, hc1, hc2, rfl⟩ := fromAscii_mem hr'
          rw [hu] at hb'
          simp only [List.head?_cons, Option.some.injEq] at hb'
          subst hb'
          have : 0x80 ≤ b := by
            have := congrArg List.head? hu
            unfold Spec.utf8 utf8Form at this
            (repeat' split at this) <;> simp at this <;> omega
          obtain ⟨t, ht⟩ := hpre
          simp only [List.cons_append, List.nil_append, List.cons.injEq] at ht
          omega) (by rw [hp]; exact hf)
      refine ⟨setPriv p 1 x', ?_, k2⟩
      simp only [setPriv, if_true, k1]
  | utf16 le e h h0 hb0 =>
    have hb : ∀ cp, Scalar cp → IsBytes (Props.utf16 le cp) ∧ Props.utf16 le cp ≠ [] := fun cp h => utf16_bytes le h.2.1
    refine ⟨_, decoder_real h (machine16_plain le) hb0, ?_, fun cp h => (hb cp h).1⟩
    refine decoder_decodes (idle := fun t => t.status = 0 ∧ Bytes16 t) (machine16_plain le) (fun t h => h.2) hb ?_ ⟨h0, hb0⟩
    intro t cp rest ht hv hr
    obtain ⟨t', k1, k2⟩ := C18_decode_form le t ht.1 cp hv.1 hv.2.1 hv.2.2 rest hr
    refine ⟨t', ⟨k1, ?_⟩, k2⟩
    exact feed_inv (machine16_plain le) _ ht.2 (bytes_append (hb cp hv).1 hr) k2
  | utf32 le e h h0 hb0 =>
    have hb : ∀ cp, Scalar cp → IsBytes (Props.utf32 le cp) ∧ Props.utf32 le cp ≠ [] := fun cp h => utf32_bytes le (by have := h.2.1; omega)
    refine ⟨_, decoder_real h (machine32_plain le) hb0, ?_, fun cp h => (hb cp h).1⟩
    refine decoder_decodes (idle := fun t => t.status = 0 ∧ Bytes16 t) (machine32_plain le) (fun t h => h.2) hb ?_ ⟨h0, hb0⟩
    intro t cp rest ht hv hr
    obtain ⟨t', k1, k2⟩ := C20_decode_partial le t ht.1 cp (by have := hv.1; omega) (by have := hv.2.1; omega) rest
    have hl : (Props.utf32 le cp).length = 4 := by cases le <;> rfl
    refine ⟨t', ⟨k1, ?_⟩, by rw [hl]; exact k2⟩
    exact feed_inv (machine32_plain le) _ ht.2 (bytes_append (hb cp hv).1 hr) k2
  | table R enc valid h1 h2 h3 h4 h5 h6 =>
    have hR : Readers s (fun _ => Reader.table R) (fun _ _ => True) (fun _ => AtTable (s.codecs 0)) := by
      refine ⟨h1, ?_⟩
      intro j hj
      rw [h2] at hj
      obtain rfl : j = 0 := by omega
      exact table_reader h3 h4 (by
        intro p b hl
        obtain ⟨r, hr, _, e⟩ := single_lookup_none.lookup_some_mem hl
        rw [← e]; exact h5 r hr) _
    have hreal := reader_realises hR (p := p) (fun _ => trivial)
    rw [h2] at hreal
    refine ⟨_, hreal, ?_, fun cp h => (h6 cp h).2.1⟩
    refine decodes_of_resume (inv := fun _ => True) (fun cp h => ⟨(h6 cp h).2.1, (h6 cp h).1⟩) ?_ trivial
    intro p cp rest _ hv _
    refine ⟨setPriv p 0 (p 0), trivial, ?_⟩
    rw [resume_eq]
    have := table_hit h4 (h6 cp hv).2.2 (h6 cp hv).1 (p 0) rest
    rw [this]

  | tables Rs enc valid h1 h2 h3 =>
    obtain ⟨D, d1, d2, d3⟩ := tables_real h1 h2 p
    refine ⟨D, d1, ⟨d2, ?_⟩, fun cp h => (h3 cp h).1⟩
    intro cps ds hv hds
    have := d3 (cps.map fun cp => (enc cp, cp)) (by
      intro c hc
      obtain ⟨cp, hcp, rfl⟩ := List.mem_map.1 hc
      exact h3 cp (hv cp hcp)) ds (by rw [hds, List.flatMap_map]; rfl)
    simpa [List.map_map, Function.comp_def] using this

theorem only_phase {s : Static π} {f : Datum → Option (List Datum)} (h : Only s .to_ (uniPrefix (encodeConv f)))
    (hb : ∀ d out, IsBytes d → uniEnc f d = some out → ∀ x ∈ out, IsBytes x) : EncoderPhase s .to_ 0 (fun _ => uniEnc f) where
  type := h.type
  notFrom := by simp
  codecn := h.one
  codec := by
    intro j hj
    obtain rfl : j = 0 := by omega
    exact .call f h.codec hb

theorem firstOf_range (fs : Nat → Datum → Option (List Datum)) (d : Datum) (k : Nat) :
    firstOf fs d 0 k = (List.range k).findSome? fun j => fs j d := by
  have key : ∀ k j, firstOf fs d j k = (List.range' j k).findSome? fun j => fs j d := by
    intro k
    induction k with
    | zero => intro j; rfl
    | succ k ih =>
      intro j
      rw [firstOf, List.range'_succ, List.findSome?_cons, ih]
      cases fs j d <;> rfl
  rw [key, List.range_eq_range']

/-- A phase that writes an encoding is an encoder of it. -/
theorem target_encodes {s : Static π} {b : Target} (h : b.Is s) (p : Nat → π) :
    ∃ E : Proc π, Realises s (fun q => q = p) E ∧ Encodes E b.enc b.takes Scalar := by
  cases h with
  | utf8 h1 h2 h3 h4 =>
    have hp : EncoderPhase s .to_ 1 (fun j => if j = 0 then uniEnc Utf8.encode else fun d => lookup Ascii.toRules [d]) := by
      refine ⟨h1, by simp, h2, ?_⟩
      intro j hj
      obtain rfl | rfl : j = 0 ∨ j = 1 := by omega
      · exact .call _ h3 utf8Encode_bytes
      · exact .table _ h4 toAscii_good.1 toAscii_good.2
    refine ⟨_, encoder_real hp p, encoder_encodes ?_⟩
    rintro cp ⟨k1, k2, k3⟩
    simp only [Target.takes, if_true, firstOf, uniEnc_uni]
    by_cases hc : cp < 0x80
    · rw [C14_refuses cp (.inl hc)]
      have e2 : uniDatum cp = [1, cp] := by rw [uniDatum, be1 (by omega)]
      simp only [e2, Target.enc, Spec.utf8, if_pos hc]
      have := toAscii_lookup cp k1 hc
      simp [this]
    · rw [C14_encode cp (by omega) (by omega)]
      rfl
  | utf16 le h =>
    refine ⟨_, encoder_real (only_phase h (encode16_bytes le)) p, encoder_encodes ?_⟩
    rintro cp ⟨k1, k2, k3⟩
    simp only [Target.takes, if_true, firstOf, uniEnc_uni, C18_encode le cp k2, Target.enc]
  | utf32 le h =>
    refine ⟨_, encoder_real (only_phase h (encode32_bytes le)) p, encoder_encodes ?_⟩
    rintro cp ⟨k1, k2, k3⟩
    simp only [Target.takes, if_true, firstOf, uniEnc_uni, C20_encode le cp (by omega), Target.enc]
  | ucs2 le h =>
    refine ⟨_, encoder_real (only_phase h (encodeUcs2_bytes le)) p, encoder_encodes ?_⟩
    rintro cp ⟨k1, k2, k3⟩
    simp only [Target.takes, decide_eq_true_eq, firstOf, uniEnc_uni, Target.enc]
    by_cases hc : cp < 0x10000
    · rw [C21_bmp le cp hc, if_pos hc]
    · rw [C21_supplementary le cp (by omega), if_neg hc]
  | table R enc takes h1 h2 h3 h4 h5 h6 =>
    have hp : EncoderPhase s .to_ 0 (fun _ d => lookup R [d]) := by
      refine ⟨h1, by simp, h2, ?_⟩
      intro j hj
      obtain rfl : j = 0 := by omega
      exact .table _ h3 h4 h5
    refine ⟨_, encoder_real hp p, encoder_encodes ?_⟩
    intro cp _
    simp only [firstOf, h6 cp, Target.takes, Target.enc]
    by_cases ht : takes cp = true <;> simp [ht]
  | tables Rs enc takes h1 h2 h3 =>
    have hp : EncoderPhase s .to_ s.codecn (fun j d => lookup (Rs j) [d]) := by
      refine ⟨h1, by simp, rfl, ?_⟩
      intro j hj
      exact .table _ (h2 j hj).1 (h2 j hj).2.1 (h2 j hj).2.2
    refine ⟨_, encoder_real hp p, encoder_encodes ?_⟩
    intro cp hcp
    rw [firstOf_range, h3 cp hcp]
    rfl

/-! ### C63 -/

/-- The phase `s`, whose codecs have the private data `p`, reads the bytes `T`, cut in any way, as the text `cps`, without errors. -/
def ReadsAs (s : Static π) (p : Nat → π) (T cps : List Nat) : Prop :=
  IsBytes T ∧ ∃ D : Proc π, Realises s (fun q => q = p) D ∧
    ∀ ds, ds.flatten = T → D.out ds = textData cps ∧ D.inErrors ds = 0 ∧ D.outErrors ds = 0 ∧ D.ok ds

/-- Bytes that the first phase reads as the text `cps`, given in any number of chunks cut anywhere, through any phases in between that map the
text to `cps'`, come out in encoding `b`. -/
theorem C63_reads {st : Nat → Static π} {ip : Nat → Nat → π → π} {ins : Ins π} {b : Target} {mid : List (Proc π)} {T : List Nat}
    (hn : ins.phasen = mid.length + 2) (cps cps' : List Nat) (ha : ReadsAs (st 1) (initPriv st ip ins 1) T cps) (hb : b.Is (st (mid.length + 2)))
    (hm : ∀ k (h : k < mid.length), Realises (st (k + 2)) (fun p => p = initPriv st ip ins (k + 2)) mid[k])
    (hmd : ∀ P ∈ mid, P.dec = false) (hcps' : ∀ cp ∈ cps', Scalar cp)
    (hok : OkRest mid (textData cps)) (hmid : runProcs mid (textData cps) = textData cps')
    (as : List Arg) (l : Arg) (h1 : ∀ x ∈ as, x.flush = false) (h2 : l.flush = true) (h3 : ∀ x ∈ as ++ [l], x.mode ≠ .null)
    (h4 : ((as ++ [l]).filterMap (fun x => x.input)).flatten = T) :
    ∃ ds ins', Session st (ins.init st ip) (as ++ [l]) ds ins' ∧
      (ds.map (fun d => d.bytes)).flatten ++ ins'.pending.flatten = (cps'.filter b.takes).flatMap b.enc ∧
      ins'.ierr = ins.ierr ∧ ins'.oerr = ins.oerr + runOut mid (textData cps) + (cps'.filter fun cp => !b.takes cp).length := by
  obtain ⟨hT, D, hD1, hD2⟩ := ha
  obtain ⟨E, hE1, hE2⟩ := target_encodes hb (initPriv st ip ins (mid.length + 2))
  refine transcodeFrom hT hD2 hE2 (chain_converts ⟨by simp, ?_, ?_⟩ (by simp [hn])) cps' hcps' hok hmid as l h1 h2 h3 h4
  · intro k hk
    cases k with
    | zero => exact hD1
    | succ k =>
      simp only [List.getElem_cons_succ]
      by_cases hk2 : k < mid.length
      · rw [List.getElem_append_left hk2]; exact hm k hk2
      · have : k = mid.length := by simp at hk; omega
        subst this
        simp only [List.getElem_append_right (Nat.le_refl _), Nat.sub_self, List.getElem_cons_zero]
        exact hE1
  · intro k hk _
    simp only [List.getElem_cons_succ]
    by_cases hk2 : k < mid.length
    · rw [List.getElem_append_left hk2]; exact hmd _ (List.getElem_mem hk2)
    · have : k = mid.length := by simp at hk; omega
      subst this
      simp only [List.getElem_append_right (Nat.le_refl _), Nat.sub_self, List.getElem_cons_zero]
      exact hE2.dec

theorem source_readsAs {s : Static π} {p : Nat → π} {a : Source} (h : a.Is s p) {cps : List Nat} (hc : ∀ cp ∈ cps, a.Has cp) :
    ReadsAs s p (cps.flatMap a.enc) cps := by
  obtain ⟨D, hD1, hD2, hD3⟩ := source_decodes h
  exact ⟨flatMap_bytes hD3 hc, D, hD1, fun ds h => hD2.text cps ds hc h⟩

/-- The text `cps`, given in encoding `a` in any number of chunks cut anywhere (inside characters too), through any
phases in between that map the text to `cps'`, comes out in encoding `b`.  Characters `b` cannot express are left out
and counted. -/
theorem C63_through {st : Nat → Static π} {ip : Nat → Nat → π → π} {ins : Ins π} {a : Source} {b : Target} {mid : List (Proc π)}
    (hn : ins.phasen = mid.length + 2) (ha : a.Is (st 1) (initPriv st ip ins 1)) (hb : b.Is (st (mid.length + 2)))
    (hm : ∀ k (h : k < mid.length), Realises (st (k + 2)) (fun p => p = initPriv st ip ins (k + 2)) mid[k])
    (hmd : ∀ P ∈ mid, P.dec = false)
    (cps cps' : List Nat) (hcps : ∀ cp ∈ cps, a.Has cp) (hcps' : ∀ cp ∈ cps', Scalar cp)
    (hok : OkRest mid (textData cps)) (hmid : runProcs mid (textData cps) = textData cps')
    (as : List Arg) (l : Arg) (h1 : ∀ x ∈ as, x.flush = false) (h2 : l.flush = true) (h3 : ∀ x ∈ as ++ [l], x.mode ≠ .null)
    (h4 : ((as ++ [l]).filterMap (fun x => x.input)).flatten = cps.flatMap a.enc) :
    ∃ ds ins', Session st (ins.init st ip) (as ++ [l]) ds ins' ∧
      (ds.map (fun d => d.bytes)).flatten ++ ins'.pending.flatten = (cps'.filter b.takes).flatMap b.enc ∧
      ins'.ierr = ins.ierr ∧ ins'.oerr = ins.oerr + runOut mid (textData cps) + (cps'.filter fun cp => !b.takes cp).length := by
  exact C63_reads hn cps cps' (source_readsAs ha hcps) hb hm hmd hcps' hok hmid as l h1 h2 h3 h4

/-- Two phases: from encoding `a` to encoding `b`. -/
theorem C63_transcode {st : Nat → Static π} {ip : Nat → Nat → π → π} {ins : Ins π} {a : Source} {b : Target}
    (hn : ins.phasen = 2) (ha : a.Is (st 1) (initPriv st ip ins 1)) (hb : b.Is (st 2))
    (cps : List Nat) (hcps : ∀ cp ∈ cps, a.Has cp ∧ Scalar cp)
    (as : List Arg) (l : Arg) (h1 : ∀ x ∈ as, x.flush = false) (h2 : l.flush = true) (h3 : ∀ x ∈ as ++ [l], x.mode ≠ .null)
    (h4 : ((as ++ [l]).filterMap (fun x => x.input)).flatten = cps.flatMap a.enc) :
    ∃ ds ins', Session st (ins.init st ip) (as ++ [l]) ds ins' ∧
      (ds.map (fun d => d.bytes)).flatten ++ ins'.pending.flatten = (cps.filter b.takes).flatMap b.enc ∧
      ins'.ierr = ins.ierr ∧ ins'.oerr = ins.oerr + (cps.filter fun cp => !b.takes cp).length := by
  obtain ⟨ds, ins', k1, k2, k3, k4⟩ := C63_through (mid := []) hn ha hb (fun k h => absurd h (by simp)) (by simp) cps cps (fun c h => (hcps c h).1)
    (fun c h => (hcps c h).2) trivial rfl as l h1 h2 h3 h4
  exact ⟨ds, ins', k1, k2, k3, k4⟩

/-- A text converted from `a` to `b` by one instance and from `b` to `c` by another — the bytes of the first, cut anew in any
way, fed to the second — is the text in `c`; with `c = a`: converting there and back gives the bytes back.  `b` names one
encoding both as a target and as a source. -/
theorem C63_round_trip {st st' : Nat → Static π} {ip ip' : Nat → Nat → π → π} {ins ins0 : Ins π} {a b : Source} {b' c : Target}
    (hn : ins.phasen = 2) (ha : a.Is (st 1) (initPriv st ip ins 1)) (hb : b'.Is (st 2))
    (hn' : ins0.phasen = 2) (hb' : b.Is (st' 1) (initPriv st' ip' ins0 1)) (hc : c.Is (st' 2))
    (hsame : b'.enc = b.enc) (cps : List Nat)
    (hcps : ∀ cp ∈ cps, Scalar cp ∧ a.Has cp ∧ b.Has cp ∧ b'.takes cp = true ∧ c.takes cp = true)
    (as : List Arg) (l : Arg) (h1 : ∀ x ∈ as, x.flush = false) (h2 : l.flush = true) (h3 : ∀ x ∈ as ++ [l], x.mode ≠ .null)
    (h4 : ((as ++ [l]).filterMap (fun x => x.input)).flatten = cps.flatMap a.enc) :
    ∃ ds ins', Session st (ins.init st ip) (as ++ [l]) ds ins' ∧ ins'.ierr = ins.ierr ∧ ins'.oerr = ins.oerr ∧
      ∀ (as' : List Arg) (l' : Arg), (∀ x ∈ as', x.flush = false) → l'.flush = true → (∀ x ∈ as' ++ [l'], x.mode ≠ .null) →
        ((as' ++ [l']).filterMap (fun x => x.input)).flatten = (ds.map (fun d => d.bytes)).flatten ++ ins'.pending.flatten →
        ∃ ds' ins'', Session st' (ins0.init st' ip') (as' ++ [l']) ds' ins'' ∧ ins''.ierr = ins0.ierr ∧ ins''.oerr = ins0.oerr ∧
          (ds'.map (fun d => d.bytes)).flatten ++ ins''.pending.flatten = cps.flatMap c.enc := by
  have hf : ∀ (t : Nat → Bool), (∀ cp ∈ cps, t cp = true) → cps.filter t = cps ∧ (cps.filter fun cp => !t cp).length = 0 := by
    intro t ht
    refine ⟨List.filter_eq_self.2 ht, ?_⟩
    rw [List.length_eq_zero_iff, List.filter_eq_nil_iff]
    intro cp hcp
    simp [ht cp hcp]
  obtain ⟨f1, f2⟩ := hf b'.takes (fun cp h => (hcps cp h).2.2.2.1)
  obtain ⟨g1, g2⟩ := hf c.takes (fun cp h => (hcps cp h).2.2.2.2)
  obtain ⟨ds, ins', k1, k2, k3, k4⟩ := C63_transcode hn ha hb cps (fun cp h => ⟨(hcps cp h).2.1, (hcps cp h).1⟩) as l h1 h2 h3 h4
  refine ⟨ds, ins', k1, k3, by rw [k4, f2]; rfl, ?_⟩
  intro as' l' m1 m2 m3 m4
  rw [k2, f1, hsame] at m4
  obtain ⟨ds', ins'', n1, n2, n3, n4⟩ := C63_transcode hn' hb' hc cps (fun cp h => ⟨(hcps cp h).2.2.1, (hcps cp h).1⟩) as' l' m1 m2 m3 m4
  exact ⟨ds', ins'', n1, n3, by rw [n4, g2]; rfl, by rw [n2, g1]⟩

/-! ### Instances -/

/-- The conversion `UTF-8:UTF-16LE`. -/
def utf8To16 (k : Nat) : Static Utf8.Priv :=
  if k = 1 then ⟨.from_, fun j => if j = 0 then trieCodec Ascii.fromRules else Utf8.codec {}, 1⟩
  else ⟨.to_, fun _ => uniPrefix (encodeConv (encode16 true)), 0⟩

/-- The conversion `UTF-16BE:UCS-2BE`. -/
def utf16ToUcs2 (k : Nat) : Static Utf16.Priv :=
  if k = 1 then ⟨.from_, fun _ => anyByte (machine16 false).conv, 0⟩
  else ⟨.to_, fun _ => uniPrefix (encodeConv (encodeUcs2 false)), 0⟩

theorem utf8To16_source (p : Nat → Utf8.Priv) (hp : p 1 = .zero) : Source.utf8.Is (utf8To16 1) p := by
  refine .utf8 (Lens.self _) ⟨rfl, rfl, ?_, ⟨_, rfl⟩⟩ hp
  refine represents_trie _ ?_
  intro r hr
  obtain ⟨c, _, _, rfl⟩ := fromAscii_mem hr
  simp

-- "A€😀" in UTF-8, cut inside the euro sign, to UTF-16LE.
example : ∃ ds ins', Session utf8To16 (utf8Ins.init utf8To16 (fun _ _ _ => .zero))
      ([⟨some [0x41, 0xE2], false, .file⟩, ⟨some [0x82], false, .file⟩] ++ [⟨some [0xAC, 0xF0, 0x9F, 0x98, 0x80], true, .file⟩]) ds ins' ∧
    (ds.map (fun d => d.bytes)).flatten ++ ins'.pending.flatten = [0x41, 0x00, 0xAC, 0x20, 0x3D, 0xD8, 0x00, 0xDE] ∧
    ins'.ierr = 0 ∧ ins'.oerr = 0 := by
  obtain ⟨ds, ins', k1, k2, k3, k4⟩ := C63_transcode (st := utf8To16) (ip := fun _ _ _ => .zero) (ins := utf8Ins) (a := .utf8) (b := .utf16 true) rfl
    (utf8To16_source _ rfl) (.utf16 true ⟨rfl, rfl, rfl⟩) [0x41, 0x20AC, 0x1F600] (by unfold Source.Has Scalar; decide)
    [⟨some [0x41, 0xE2], false, .file⟩, ⟨some [0x82], false, .file⟩] ⟨some [0xAC, 0xF0, 0x9F, 0x98, 0x80], true, .file⟩
    (by decide) rfl (by decide) (by decide)
  exact ⟨ds, ins', k1, k2.trans (by decide), k3, k4⟩

-- "A😀" in UTF-16BE to UCS-2: the second character is lost and counted.
example : ∃ ds ins', Session utf16ToUcs2 (Ins.init utf16ToUcs2 (fun _ _ t => { t with status := 0 }) { ph := fun _ => { priv := fun _ => ⟨3, 1, 2, 3, 4⟩ }, phasen := 2 })
      ([⟨some [0x00], false, .file⟩] ++ [⟨some [0x41, 0xD8, 0x3D, 0xDE, 0x00], true, .file⟩]) ds ins' ∧
    (ds.map (fun d => d.bytes)).flatten ++ ins'.pending.flatten = [0x00, 0x41] ∧ ins'.ierr = 0 ∧ ins'.oerr = 1 := by
  obtain ⟨ds, ins', k1, k2, k3, k4⟩ := C63_transcode (st := utf16ToUcs2) (ip := fun _ _ t => { t with status := 0 })
    (ins := { ph := fun _ => { priv := fun _ => ⟨3, 1, 2, 3, 4⟩ }, phasen := 2 }) (a := .utf16 false) (b := .ucs2 false) rfl
    (.utf16 false (Lens.self _) ⟨rfl, rfl, ⟨none, rfl⟩⟩ rfl (by refine ⟨?_, ?_, ?_, ?_⟩ <;> decide)) (.ucs2 false ⟨rfl, rfl, rfl⟩)
    [0x41, 0x1F600] (by unfold Source.Has Scalar; decide) [⟨some [0x00], false, .file⟩] ⟨some [0x41, 0xD8, 0x3D, 0xDE, 0x00], true, .file⟩
    (by decide) rfl (by decide) (by decide)
  exact ⟨ds, ins', k1, k2.trans (by decide), k3, k4⟩

end Verif.Props
