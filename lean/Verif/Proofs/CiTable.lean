import Verif.Spec.CiTable
import Verif.Proofs.MkCompiled

/-! The codec of a rule file with ranges and rules marked `!`. -/

namespace Verif.MkTable
open Verif.Engine (Status Datum Codec symbols Represents IsBytes GoodData nodeStatus extendable)
open Verif.Spec.Table
open Verif.Spec (Rules lookup)

variable {π : Type}

theorem mem_fitting {ci : Bool} : ∀ {bs : List (Nat × Nat)} {q : List Nat}, (∀ b ∈ bs, b.2 ≤ 256) → (q ∈ fitting ci bs ↔ within ci bs q = true)
  | [], [], _ => by simp [fitting, within]
  | [], _ :: _, _ => by simp [fitting, within]
  | _ :: _, [], _ => by simp [fitting, within]
  | b :: bs, c :: q, h => by
    have ih := mem_fitting (ci := ci) (bs := bs) (q := q) (fun x hx => h x (by simp [hx]))
    have hc : symbolFits ci b c = true → c < 257 := by
      intro k
      have := Arena.within_bound (ci := ci) (bs := [b]) (q := [c]) (by intro x hx; simp at hx; subst hx; exact h _ (by simp)) (by simp [within, k]) c (by simp)
      omega
    simp only [fitting, List.mem_flatMap, List.mem_filter, List.mem_range, List.mem_map, List.cons.injEq, within, Bool.and_eq_true]
    constructor
    · rintro ⟨c', ⟨_, k⟩, q', hq, rfl, rfl⟩
      exact ⟨k, ih.1 hq⟩
    · rintro ⟨k1, k2⟩
      exact ⟨c, ⟨hc k1, k1⟩, q, ih.2 k2, rfl, rfl⟩

theorem best_isSome {rs : List Rule} {q : List Nat} : (best rs q).isSome = true ↔ ∃ r ∈ rs, covers r q = true := by
  constructor
  · intro h
    obtain ⟨r, hr⟩ := Option.isSome_iff_exists.1 h
    exact ⟨r, (Arena.best_mem hr).1, (Arena.best_mem hr).2⟩
  · rintro ⟨r, hr, hc⟩
    have keep : ∀ (l : List Rule) (o : Option Rule), o.isSome = true → (l.foldl (better q) o).isSome = true := by
      intro l
      induction l with
      | nil => intro o h; exact h
      | cons x l ih =>
        intro o h
        refine ih _ ?_
        obtain ⟨y, rfl⟩ := Option.isSome_iff_exists.1 h
        simp only [better]
        split <;> rfl
    have go : ∀ (l : List Rule) (o : Option Rule), r ∈ l → (l.foldl (better q) o).isSome = true := by
      intro l
      induction l with
      | nil => intro o h; simp at h
      | cons x l ih =>
        intro o h
        rcases List.mem_cons.1 h with rfl | h
        · refine keep l _ ?_
          cases o with
          | none => simp [better, hc]
          | some y =>
            simp only [better]
            split <;> rfl
        · exact ih _ h
    exact go rs none hr

theorem mem_expanded {rs : List Rule} (hp : ∀ r ∈ rs, Plain r) {q : List Nat} {d : List (List Nat)} :
    (q, d) ∈ expanded rs ↔ ∃ r, best rs q = some r ∧ datums r.dat = d := by
  simp only [expanded, List.mem_filterMap, List.mem_flatMap, Option.map_eq_some_iff, Prod.mk.injEq]
  constructor
  · rintro ⟨q', _, r, h, rfl, e⟩
    exact ⟨r, h, e⟩
  · rintro ⟨r, h, e⟩
    exact ⟨q, ⟨r, (Arena.best_mem h).1, (mem_fitting (hp r (Arena.best_mem h).1).2).2 (Arena.best_mem h).2⟩, r, h, rfl, e⟩

theorem lookup_unique {α β : Type} [DecidableEq α] {R : Rules α β} {q : List α} {d : β} (hm : (q, d) ∈ R) (hu : ∀ e, (q, e) ∈ R → e = d) : lookup R q = some d := by
  induction R with
  | nil => simp at hm
  | cons r R ih =>
    simp only [lookup]
    by_cases e : r.1 = q
    · rw [if_pos e, hu r.2 (by rw [← e]; simp)]
    · rw [if_neg e]
      rcases List.mem_cons.1 hm with h | h
      · exact absurd (by rw [← h]) e
      · exact ih h (fun x hx => hu x (by simp [hx]))

/-- What the expanded rules say about a string. -/
theorem lookup_expanded {rs : List Rule} (hp : ∀ r ∈ rs, Plain r) (q : List Nat) : lookup (expanded rs) q = (best rs q).map fun r => datums r.dat := by
  cases h : best rs q with
  | none =>
    cases h' : lookup (expanded rs) q with
    | none => rfl
    | some d =>
      obtain ⟨r, k, _⟩ := (mem_expanded hp).1 (lookup_mem h')
      rw [h] at k
      cases k
  | some r =>
    refine lookup_unique ((mem_expanded hp).2 ⟨r, h, rfl⟩) ?_
    intro e he
    obtain ⟨r', k, rfl⟩ := (mem_expanded hp).1 he
    rw [h] at k
    cases k
    rfl

theorem within_take {ci : Bool} : ∀ {bs : List (Nat × Nat)} {p q : List Nat}, within ci bs (p ++ q) = true → within ci (bs.take p.length) p = true
  | _, [], _, _ => by simp [within]
  | [], _ :: _, _, h => by simp [within] at h
  | b :: bs, c :: p, q, h => by
    simp only [List.cons_append, within, Bool.and_eq_true] at h
    simp only [List.length_cons, List.take_succ_cons, within, Bool.and_eq_true]
    exact ⟨h.1, within_take h.2⟩

theorem within_extend {ci : Bool} : ∀ {bs : List (Nat × Nat)} {p : List Nat}, (∀ b ∈ bs, b.1 ≤ b.2) → within ci (bs.take p.length) p = true →
    p.length ≤ bs.length → ∃ q, within ci bs (p ++ q) = true
  | bs, [], h, _, _ => by
    refine ⟨bs.map Prod.fst, ?_⟩
    induction bs with
    | nil => rfl
    | cons b bs ih =>
      have hb := h b (by simp)
      simp only [List.nil_append, List.map_cons, within, Bool.and_eq_true] at ih ⊢
      exact ⟨by simp [symbolFits, hb], ih (fun x hx => h x (by simp [hx])) rfl (by simp)⟩
  | [], _ :: _, _, _, h => by simp at h
  | b :: bs, c :: p, h, h1, h2 => by
    simp only [List.length_cons, List.take_succ_cons, within, Bool.and_eq_true] at h1
    simp only [List.length_cons, Nat.add_le_add_iff_right] at h2
    obtain ⟨q, hq⟩ := within_extend (fun x hx => h x (by simp [hx])) h1.2 h2
    exact ⟨q, by simp [within, h1.1, hq]⟩

/-- A string can be extended to one with a rule exactly if a rule begins with it. -/
theorem begins_expanded {rs : List Rule} (hp : ∀ r ∈ rs, Plain r) (hb : ∀ r ∈ rs, ∀ b ∈ r.pat, b.1 ≤ b.2) (p : List Nat) :
    extendable (expanded rs) p = rs.any (begins · p) := by
  rw [Bool.eq_iff_iff]
  simp only [extendable, List.any_eq_true, Bool.and_eq_true, List.isPrefixOf_iff_prefix, bne_iff_ne]
  constructor
  · rintro ⟨⟨q, d⟩, hm, ⟨t, rfl⟩, hne⟩
    obtain ⟨r, hr, _⟩ := (mem_expanded hp).1 hm
    obtain ⟨k1, k2⟩ := Arena.best_mem hr
    have hl := Arena.within_length k2
    have ht : t ≠ [] := by rintro rfl; simp at hne
    have := List.length_pos_iff.2 ht
    rw [List.length_append] at hl
    exact ⟨r, k1, by rw [begins, Bool.and_eq_true, decide_eq_true_eq]; exact ⟨by omega, within_take k2⟩⟩
  · rintro ⟨r, hr, hbeg⟩
    rw [begins, Bool.and_eq_true, decide_eq_true_eq] at hbeg
    obtain ⟨q, hq⟩ := within_extend (hb r hr) hbeg.2 (Nat.le_of_lt hbeg.1)
    have hl := Arena.within_length hq
    obtain ⟨r', h'⟩ := Option.isSome_iff_exists.1 (best_isSome.2 ⟨r, hr, hq⟩)
    refine ⟨(p ++ q, datums r'.dat), (mem_expanded hp).2 ⟨r', h', rfl⟩, ⟨q, rfl⟩, ?_⟩
    intro e
    have := congrArg List.length e
    simp only at this
    omega

theorem represents_expanded (rs : List Rule) (hp : ∀ r ∈ rs, Plain r) (hcl : NoClash rs) (hb : ∀ r ∈ rs, ∀ b ∈ r.pat, b.1 ≤ b.2) (hcb : ∀ r ∈ rs, r.cb = false)
    (hd : ∀ r ∈ rs, (datums r.dat).length ≤ 1024) (hsz : (emit (build rs)).offset < 4294967296) : Represents (compiled π rs) (expanded rs) := by
  have key := fun q hq => compiled_lookup (π := π) rs hp hcl hsz hd q hq
  have hm : ∀ q, meaning rs q = if (best rs q).isSome ∨ extendable (expanded rs) q = true then
      some (nodeStatus (expanded rs) q, ((best rs q).map (·.dat)).getD []) else none := by
    intro q
    have e := begins_expanded hp hb q
    simp only [nodeStatus, lookup_expanded hp, e, meaning]
    cases h : best rs q with
    | none => cases h' : rs.any (begins · q) <;> simp
    | some r => cases h' : rs.any (begins · q) <;> simp [hcb r (Arena.best_mem h).1]
  have hpath : ∀ q, (best rs q).isSome ∨ extendable (expanded rs) q = true ↔ ∃ r ∈ expanded rs, q <+: r.1 := by
    intro q
    constructor
    · rintro (h | h)
      · obtain ⟨r, h⟩ := Option.isSome_iff_exists.1 h
        exact ⟨_, (mem_expanded hp).2 ⟨r, h, rfl⟩, List.prefix_refl _⟩
      · simp only [extendable, List.any_eq_true, Bool.and_eq_true, List.isPrefixOf_iff_prefix] at h
        obtain ⟨r, h1, h2, _⟩ := h
        exact ⟨r, h1, h2⟩
    · rintro ⟨⟨p, d⟩, h1, h2⟩
      by_cases e : p = q
      · subst e
        obtain ⟨r, h, _⟩ := (mem_expanded hp).1 h1
        exact .inl (by rw [h]; rfl)
      · right
        simp only [extendable, List.any_eq_true, Bool.and_eq_true, List.isPrefixOf_iff_prefix]
        exact ⟨_, h1, h2, by simpa using e⟩
  refine ⟨compiled_root _ hp hcl hsz, ?_, ?_, ?_⟩
  · intro q hq
    have := key q hq
    rw [hm] at this
    rw [← hpath q]
    by_cases h : (best rs q).isSome ∨ extendable (expanded rs) q = true
    · rw [if_pos h] at this
      obtain ⟨o, h1, _⟩ := this
      simp [h1, h]
    · rw [if_neg h] at this
      simp only at this
      simp only [this, h]
      simp
  · intro q o hq ho
    have := key q hq
    rw [hm] at this
    by_cases h : (best rs q).isSome ∨ extendable (expanded rs) q = true
    · rw [if_pos h] at this
      obtain ⟨o', h1, h2, _⟩ := this
      rw [ho] at h1; cases h1
      exact h2
    · rw [if_neg h] at this
      simp only at this
      rw [ho] at this; simp at this
  · intro q o b ho hl
    rw [lookup_expanded hp, Option.map_eq_some_iff] at hl
    obtain ⟨r, h, rfl⟩ := hl
    have hq : q ≠ [] := by
      rintro rfl
      obtain ⟨k1, k2⟩ := Arena.best_mem h
      have := Arena.within_length k2
      exact (hp r k1).1 (List.eq_nil_of_length_eq_zero this.symm)
    have := key q hq
    rw [hm, if_pos (.inl (by rw [h]; rfl)), h] at this
    simp only [Option.map_some, Option.getD_some] at this
    obtain ⟨o', h1, _, h3⟩ := this
    rw [ho] at h1; cases h1
    exact h3

end Verif.MkTable
