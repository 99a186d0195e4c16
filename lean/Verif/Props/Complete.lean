import Verif.Model.Complete
import Verif.Props.Listing

/-! C93: completion of a typed conversion. -/

namespace Verif.Props
open Verif.Spec
open Verif.Listing (strstr Lists)
open Verif.Complete

theorem strstr_zero (n p : List Nat) : strstr n p = some 0 ↔ p <+: n := by
  cases n with
  | nil =>
    unfold strstr
    split
    · rename_i h; subst h; simp
    · rename_i h; simp [h]
  | cons b s =>
    unfold strstr
    split
    · rename_i h; simpa using List.isPrefixOf_iff_prefix.1 h
    · rename_i h
      have : ¬ p <+: b :: s := fun k => h (List.isPrefixOf_iff_prefix.2 k)
      simp [this]

/-- What the names offered are, while there is room. -/
theorem offer_all (part : List Nat) (ns : List (List Nat)) : ∀ c : Cands, c.safe = true → c.names.Nodup → c.names.length + ns.length < c.slots →
    (ns.foldl (Cands.offer part) c).safe = true ∧ (ns.foldl (Cands.offer part) c).slots = c.slots ∧ (ns.foldl (Cands.offer part) c).names.Nodup ∧
      (ns.foldl (Cands.offer part) c).names.length ≤ c.names.length + ns.length ∧
      ∀ n, n ∈ (ns.foldl (Cands.offer part) c).names ↔ n ∈ c.names ∨ (n ∈ ns ∧ part <+: n) := by
  induction ns with
  | nil => intro c h1 h2 h3; exact ⟨h1, rfl, h2, by simp, by simp⟩
  | cons m ns ih =>
    intro c h1 h2 h3
    simp only [List.length_cons] at h3
    rw [List.foldl_cons]
    by_cases hm : strstr m part = some 0 ∧ c.names.contains m = false
    · have e : Cands.offer part c m = { c with names := c.names ++ [m], safe := true } := by
        have a1 : c.names.length < c.slots := by omega
        have a2 : c.names.length + 1 < c.slots := by omega
        simp only [Cands.offer, if_pos hm]
        simp [h1, a1, a2]
      obtain ⟨m1, m2⟩ := hm
      rw [strstr_zero] at m1
      have m2 : m ∉ c.names := by simpa using m2
      rw [e]
      obtain ⟨i1, i2, i3, i4, i5⟩ := ih { c with names := c.names ++ [m], safe := true } rfl
        (List.nodup_append.2 ⟨h2, by simp, by intro x hx y hy; simp at hy; exact fun e => m2 (hy ▸ e ▸ hx)⟩) (by simp; omega)
      refine ⟨i1, i2, i3, by simp at i4 ⊢; omega, ?_⟩
      intro n
      rw [i5]
      simp only [List.mem_append, List.mem_cons, List.not_mem_nil, or_false]
      constructor
      · rintro ((k | rfl) | k)
        · exact .inl k
        · exact .inr ⟨.inl rfl, m1⟩
        · exact .inr ⟨.inr k.1, k.2⟩
      · rintro (k | ⟨rfl | k, k'⟩)
        · exact .inl (.inl k)
        · exact .inl (.inr rfl)
        · exact .inr ⟨k, k'⟩
    · have e : Cands.offer part c m = c := by
        have a1 : c.names.length < c.slots := by omega
        have : ({ c with safe := c.safe && decide (c.names.length < c.slots) } : Cands) = c := by
          cases c; simp_all
        simp only [Cands.offer, if_neg hm]
        exact this
      rw [e]
      obtain ⟨i1, i2, i3, i4, i5⟩ := ih c h1 h2 (by omega)
      refine ⟨i1, i2, i3, by simp; omega, ?_⟩
      intro n
      rw [i5]
      simp only [List.mem_cons]
      constructor
      · rintro (k | k)
        · exact .inl k
        · exact .inr ⟨.inr k.1, k.2⟩
      · rintro (k | ⟨rfl | k, k'⟩)
        · exact .inl k
        · have : n ∈ c.names := by
            rw [strstr_zero] at hm
            have := mt (fun h => (⟨k', h⟩ : part <+: n ∧ c.names.contains n = false)) hm
            simpa using this
          exact .inl this
        · exact .inr ⟨k, k'⟩

/-- Where the last part of a text begins. -/
theorem scan_at : ∀ (t : List Nat) (s : Scan), ∃ pre part, t = pre ++ part ∧ part.all (fun b => !isSeparator b) = true ∧
    (t.foldl Scan.step s).part = (if pre = [] then s.part else s.pos + pre.length) ∧ (pre ≠ [] → ∃ b, pre.getLast? = some b ∧ isSeparator b = true) ∧
    (t.foldl Scan.step s).pos = s.pos + t.length ∧
    (t.foldl Scan.step s).to = (match (t.filter fun b => b == 58 || b == 124).getLast? with | some b => b == 58 | none => s.to) := by
  intro t
  induction t with
  | nil => intro s; exact ⟨[], [], rfl, rfl, rfl, fun h => absurd rfl h, rfl, rfl⟩
  | cons b t ih =>
    intro s
    obtain ⟨pre, part, h1, h2, h3, h4, h5, h6⟩ := ih (s.step b)
    have hpos : (s.step b).pos = s.pos + 1 := by
      unfold Scan.step
      split
      · rfl
      · split
        · rfl
        · split <;> rfl
    rw [List.foldl_cons]
    have hlast : ((b :: t).foldl Scan.step s).to = (match ((b :: t).filter fun b => b == 58 || b == 124).getLast? with | some b => b == 58 | none => s.to) := by
      rw [List.foldl_cons, h6, List.filter_cons]
      by_cases hb : (b == 58 || b == 124) = true
      · rw [if_pos hb]
        cases hf : (t.filter fun b => b == 58 || b == 124).getLast? with
        | some c => rw [List.getLast?_cons]; simp [hf]
        | none =>
          rw [List.getLast?_cons]; simp only [hf, Option.getD_none]
          unfold Scan.step
          simp only [Bool.or_eq_true, beq_iff_eq] at hb
          rcases hb with rfl | rfl <;> simp
      · rw [if_neg hb]
        cases hf : (t.filter fun b => b == 58 || b == 124).getLast? with
        | some c => rfl
        | none =>
          simp only [Bool.or_eq_true, beq_iff_eq, not_or] at hb
          simp only
          unfold Scan.step
          rw [if_neg hb.1, if_neg hb.2]; split <;> rfl
    rw [List.foldl_cons] at hlast
    by_cases hp : pre = []
    · subst hp
      rw [if_pos rfl] at h3
      by_cases hb : isSeparator b = true
      · refine ⟨[b], part, by rw [h1]; rfl, h2, ?_, fun _ => ⟨b, rfl, hb⟩, by rw [h5, hpos]; simp; omega, hlast⟩
        rw [h3]
        have : b = 58 ∨ b = 124 ∨ b = 44 := by simpa [isSeparator, or_assoc] using hb
        rcases this with rfl | rfl | rfl <;> simp [Scan.step]
      · refine ⟨[], b :: part, by rw [h1]; rfl, by simpa [hb] using h2, ?_, fun h => absurd rfl h, by rw [h5, hpos]; simp; omega, hlast⟩
        rw [h3]
        have : b ≠ 58 ∧ b ≠ 124 ∧ b ≠ 44 := by simpa [isSeparator, and_assoc] using hb
        simp [Scan.step, this]
    · refine ⟨b :: pre, part, by rw [h1]; rfl, h2, ?_, fun _ => ?_, by rw [h5, hpos]; simp; omega, hlast⟩
      · rw [h3, if_neg hp, if_neg (by simp), hpos]; simp; omega
      · obtain ⟨c, k1, k2⟩ := h4 hp
        exact ⟨c, by rw [List.getLast?_cons, k1]; rfl, k2⟩

theorem lines_all (arg : List Nat) (part : Nat) (h : part ≤ arg.length) : ∀ ns, lines arg part ns = some (ns.map (arg.take part ++ ·))
  | [] => rfl
  | n :: ns => by
    simp only [lines, line, if_pos (show part + n.length + 1 ≤ arg.length + n.length + 1 by omega), lines_all arg part h ns, List.map_cons]

/-- The quotes around a text. -/
theorem unquoted {x q q' : List Nat} (hq : q = [] ∨ q = [39] ∨ q = [34]) (hq' : q' = [] ∨ q' = [39] ∨ q' = [34])
    (hf : ∀ b, x.head? = some b → quote b = false) (hl : ∀ b, x.getLast? = some b → quote b = false) (hne : q ++ x ++ q' ≠ []) (hx : x = [] → q ≠ []) :
    unquote (q ++ x ++ q') = some x := by
  have tail : ∀ y : List Nat, y = x ++ q' → (match y.getLast? with | none => some [] | some c => some (if quote c then y.dropLast else y)) = some x := by
    rintro y rfl
    rcases hq' with rfl | rfl | rfl
    · rw [List.append_nil]
      cases h : x.getLast? with
      | none => rw [List.getLast?_eq_none_iff] at h; subst h; rfl
      | some c => simp [hl c h]
    · simp [quote]
    · simp [quote]
  have hx' : x ++ q' = match x ++ q' with | [] => [] | b :: s => b :: s := by split <;> simp_all
  rcases hq with rfl | rfl | rfl
  · cases x with
    | nil => exact absurd rfl (hx rfl)
    | cons b s =>
      have := hf b rfl
      simp only [List.nil_append, List.cons_append, unquote, this]
      exact tail _ rfl
  · simp only [List.cons_append, List.nil_append, unquote, quote]
    exact tail _ rfl
  · simp only [List.cons_append, List.nil_append, unquote, quote]
    exact tail _ rfl

/-- C93.  For every text typed, with or without quotes around it, but for the empty one, and any lists of codecs: no memory outside the buffers is touched.  The text, in upper case,
is what stands in front of the part that is being typed, up to a separator, and that part; the lines printed are, once each, the front followed by a codec that begins with the part
(of INTER, and of TO behind a `:`, else of FROM). -/
theorem C93_complete (inter from_ to_ : List (List Nat)) {x q q' : List Nat} (hq : q = [] ∨ q = [39] ∨ q = [34]) (hq' : q' = [] ∨ q' = [39] ∨ q' = [34])
    (hf : ∀ b, x.head? = some b → b ≠ 39 ∧ b ≠ 34) (hl : ∀ b, x.getLast? = some b → b ≠ 39 ∧ b ≠ 34) (hx : x = [] → q ≠ []) :
    ∃ (front part : List Nat) (ns : List (List Nat)), upperBytes x = front ++ part ∧ (∀ b ∈ part, isSeparator b = false) ∧ (front = [] ∨ ∃ b, front.getLast? = some b ∧ isSeparator b = true) ∧
      completions inter from_ to_ (q ++ x ++ q') = some (ns.map (front ++ ·)) ∧ ns.Nodup ∧
      ∀ n, n ∈ ns ↔ (n ∈ inter ∨ n ∈ (if writing front then to_ else from_)) ∧ part <+: n := by
  have hne : q ++ x ++ q' ≠ [] := by
    intro e
    simp only [List.append_eq_nil_iff] at e
    exact hx e.1.2 e.1.1
  obtain ⟨front, part, h1, h2, h3, h4, _, h6⟩ := scan_at (upperBytes x) ⟨0, 0, false⟩
  have hp : ((upperBytes x).foldl Scan.step ⟨0, 0, false⟩).part = front.length := by
    rw [h3]; split
    · rename_i h; rw [h]; rfl
    · simp
  have hsep : ∀ b ∈ part, isSeparator b = false := by
    intro b hb
    have := List.all_eq_true.1 h2 b hb
    simpa using this
  have hw : ((upperBytes x).foldl Scan.step ⟨0, 0, false⟩).to = writing front := by
    rw [h6, h1, List.filter_append]
    have : (part.filter fun b => b == 58 || b == 124) = [] := by
      refine List.filter_eq_nil_iff.2 ?_
      intro b hb
      have := hsep b hb
      simp only [isSeparator, Bool.or_eq_false_iff] at this
      simp [this.1.1, this.1.2]
    rw [this, List.append_nil]
    rfl
  have hd : (upperBytes x).drop front.length = part := by rw [h1]; simp
  have ht : (upperBytes x).take front.length = front := by rw [h1]; simp
  obtain ⟨a1, a2, a3, a4, a5⟩ := offer_all part inter ⟨inter.length + (if writing front then to_ else from_).length + 1, [], true⟩ rfl (by simp) (by simp; omega)
  obtain ⟨b1, b2, b3, b4, b5⟩ := offer_all part (if writing front then to_ else from_) _ a1 a3 (by rw [a2]; simp at a4 ⊢; omega)
  refine ⟨front, part, _, h1, hsep, ?_, ?_, b3, ?_⟩
  · by_cases h : front = []
    · exact .inl h
    · exact .inr (h4 h)
  · unfold completions
    rw [unquoted hq hq' (fun b h => by simp [quote, hf b h]) (fun b h => by simp [quote, hl b h]) hne hx]
    simp only [hp, hw, hd]
    rw [if_pos b1, lines_all _ _ (by rw [h1]; simp), ht]
  · intro n
    rw [b5, a5]
    simp only [List.not_mem_nil, false_or]
    constructor
    · rintro (k | k)
      · exact ⟨.inl k.1, k.2⟩
      · exact ⟨.inr k.1, k.2⟩
    · rintro ⟨k | k, k'⟩
      · exact .inl ⟨k, k'⟩
      · exact .inr ⟨k, k'⟩

/-- C93.  So every line printed goes on from what was typed. -/
theorem C93_goes_on (inter from_ to_ : List (List Nat)) {x q q' : List Nat} (hq : q = [] ∨ q = [39] ∨ q = [34]) (hq' : q' = [] ∨ q' = [39] ∨ q' = [34])
    (hf : ∀ b, x.head? = some b → b ≠ 39 ∧ b ≠ 34) (hl : ∀ b, x.getLast? = some b → b ≠ 39 ∧ b ≠ 34) (hx : x = [] → q ≠ []) :
    ∃ ls, completions inter from_ to_ (q ++ x ++ q') = some ls ∧ ls.Nodup ∧ ∀ l ∈ ls, upperBytes x <+: l := by
  obtain ⟨front, part, ns, h1, _, _, h4, h5, h6⟩ := C93_complete inter from_ to_ hq hq' hf hl hx
  refine ⟨_, h4, ?_, ?_⟩
  · refine List.pairwise_map.2 (h5.imp ?_)
    intro a b h e
    exact h (List.append_cancel_left e)
  · intro l hl
    obtain ⟨n, hn, rfl⟩ := List.mem_map.1 hl
    rw [h1]
    exact (List.prefix_append_right_inj _).2 ((h6 n).1 hn).2

/-- C93 is false of the code for the empty text (and without an argument): a byte in front of the buffer is read, and overwritten if it happens to be a quote. -/
theorem C93_empty_violated (inter from_ to_ : List (List Nat)) : completions inter from_ to_ [] = none := rfl

/-- `'utf-8:b`: what begins with B and can follow. -/
example : completions [Solve.lit "BONUS", Solve.lit "UPPER"] [Solve.lit "BYTE"] [Solve.lit "BIG5", Solve.lit "BONUS", Solve.lit "GBK"] (Solve.lit "'utf-8:b") =
    some [Solve.lit "UTF-8:BONUS", Solve.lit "UTF-8:BIG5"] := by decide

end Verif.Props
