import Verif.Proofs.MkRead
import Verif.Model.Automaton

/-! The codec of a rule file. -/

namespace Verif.MkTable
open Verif.Engine (Status Datum Codec symbols Represents IsBytes GoodData)
open Verif.Spec.Table
open Verif.Spec (Rules lookup)

variable {π : Type}

theorem walk_find {A : Arena} (hg : A.Good) (hsz : (emit A).offset < 4294967296) (p : List Nat) : ∀ k, k < A.count →
    Verif.Engine.walk (codecOf (π := π) (image A)) (16 * k) p = (A.walk k p).map (16 * ·) := by
  induction p with
  | nil => intro k _; rfl
  | cons c cs ih =>
    intro k hk
    have hn : (codecOf (π := π) (image A)).next (16 * k) c = _ := read_next hg hsz hk c
    simp only [Verif.Engine.walk, Arena.walk, hn]
    cases hkc : (A.node k).kids c with
    | none => simp
    | some j =>
      have hr := hg.range _ _ _ hkc
      simp only [Option.bind_some]
      rw [if_neg (by omega)]
      exact ih j hr.2.2

theorem find_lt {A : Arena} (hg : A.Good) {p : List Nat} {k : Nat} (h : A.find p = some k) : k < A.count := hg.lt h

theorem build_good (rs : List Rule) (hp : ∀ r ∈ rs, Plain r) (hcl : NoClash rs) : (build rs).Good := (Arena.build_see rs hp hcl).1

/-- What a look-up in the image finds. -/
theorem compiled_lookup (rs : List Rule) (hp : ∀ r ∈ rs, Plain r) (hcl : NoClash rs) (hsz : (emit (build rs)).offset < 4294967296)
    (hd : ∀ r ∈ rs, (datums r.dat).length ≤ 1024) (q : List Nat) (hq : q ≠ []) :
    match meaning rs q with
    | none => Verif.Engine.walk (compiled π rs) 0 q = none
    | some (st, d) => ∃ o, Verif.Engine.walk (compiled π rs) 0 q = some o ∧ (compiled π rs).status o = st ∧ (compiled π rs).data o = datums d := by
  obtain ⟨hg, hs⟩ := Arena.build_see rs hp hcl
  have hw := walk_find (π := π) hg hsz q 0 hg.pos
  simp only [Nat.mul_zero] at hw
  have hs := hs q hq
  unfold Arena.mean at hs
  rw [Arena.see] at hs
  cases hm : meaning rs q with
  | none =>
    rw [hm] at hs
    simp only [Option.map_none, Option.map_eq_none_iff] at hs
    simp only
    rw [compiled, hw, show (build rs).walk 0 q = (build rs).find q from rfl, hs]
    rfl
  | some x =>
    obtain ⟨st, d⟩ := x
    rw [hm] at hs
    simp only [Option.map_some, Option.map_eq_some_iff] at hs
    obtain ⟨k, hk, hc⟩ := hs
    have hlt := find_lt hg hk
    simp only
    refine ⟨16 * k, ?_, ?_, ?_⟩
    · rw [compiled, hw, show (build rs).walk 0 q = (build rs).find q from rfl, hk]
      rfl
    · show statusOf (image (build rs) (16 * k)) = st
      rw [read_status hg hsz hlt]
      have := congrArg Arena.Content.status hc
      simpa [Arena.content] using this
    · have hdat : ((build rs).node k).data = d := by
        have := congrArg Arena.Content.data hc
        simpa [Arena.content] using this
      show readData (image (build rs)) 1024 (get32 (image (build rs)) (16 * k + 4)) = datums d
      rw [read_data hg hsz hlt ?_, hdat]
      rw [hdat]
      unfold meaning at hm
      cases hf : best rs q with
      | none =>
        rw [hf] at hm
        cases ha : rs.any (begins · q) <;> rw [ha] at hm <;> simp at hm
        rw [hm.2, datums_nil]; simp
      | some r =>
        rw [hf] at hm
        simp only [Option.some.injEq, Prod.mk.injEq] at hm
        rw [← hm.2]
        exact hd r (Arena.best_mem hf).1

theorem compiled_root (rs : List Rule) (hp : ∀ r ∈ rs, Plain r) (hcl : NoClash rs) (hsz : (emit (build rs)).offset < 4294967296) :
    (compiled π rs).status 0 = .deadend := by
  obtain ⟨hg, hs⟩ := Arena.build_see rs hp hcl
  show statusOf (image (build rs) (16 * 0)) = _
  rw [read_status hg hsz hg.pos, hg.root]

/-! ### Rules for single strings -/

/-- The lines of a file for rules without ranges and callbacks. -/
def lines (S : Rules Nat (List Datum)) : List Rule :=
  S.map fun r => { pat := r.1.map fun c => (c, c), dat := symbols r.2 }

theorem within_single (p q : List Nat) : within false (p.map fun c => (c, c)) q = decide (p = q) := by
  induction p generalizing q with
  | nil => cases q <;> simp [within]
  | cons c p ih =>
    cases q with
    | nil => simp [within]
    | cons d q =>
      simp only [List.map_cons, within, symbolFits, ih, List.cons.injEq, Bool.false_and, Bool.or_false]
      rw [← Bool.decide_and]
      congr 1
      simp only [eq_iff_iff]
      constructor
      · rintro ⟨⟨h1, h2⟩, h3⟩; exact ⟨by omega, h3⟩
      · rintro ⟨rfl, h3⟩; exact ⟨⟨Nat.le_refl _, Nat.le_refl _⟩, h3⟩

theorem find_lines (S : Rules Nat (List Datum)) (q : List Nat) :
    ((lines S).find? (covers · q)).map (fun r => r.dat) = (lookup S q).map symbols := by
  induction S with
  | nil => rfl
  | cons r S ih =>
    simp only [lines, List.map_cons, List.find?_cons, covers, within_single, lookup] at ih ⊢
    by_cases h : r.1 = q
    · simp [h]
    · simp only [h, decide_false, if_false]
      exact ih

theorem exactly_within {bs : List (Nat × Nat)} {q : List Nat} (h : within false bs q = true) : exactly bs q = bs.length := by
  induction bs generalizing q with
  | nil => cases q <;> simp [exactly]
  | cons b bs ih =>
    cases q with
    | nil => simp [within] at h
    | cons c cs =>
      simp only [within, symbolFits, Bool.false_and, Bool.or_false, Bool.and_eq_true, decide_eq_true_eq] at h
      simp only [exactly, ih h.2, if_pos h.1, List.length_cons]
      omega

/-- Without `!` the first plain rule is in charge, or else the first callback. -/
theorem best_plain_first (rs : List Rule) (h : ∀ r ∈ rs, r.ci = false) (q : List Nat) :
    best rs q = (rs.find? fun r => covers r q && !r.cb).or (rs.find? (covers · q)) := by
  induction rs using snocInd with
  | nil => rfl
  | snoc rs r ih =>
    have ih := ih (fun x hx => h x (by simp [hx]))
    rw [Arena.best_snoc, ih, List.find?_append, List.find?_append]
    have hr := h r (by simp)
    have hex : ∀ o ∈ rs, covers o q = true → covers r q = true → ¬ exactly o.pat q < exactly r.pat q := by
      intro o ho h1 h2
      simp only [covers, hr, h o (by simp [ho])] at h1 h2
      rw [exactly_within h1, exactly_within h2, ← Arena.within_length h1, ← Arena.within_length h2]
      omega
    unfold better
    cases hf : rs.find? fun r => covers r q && !r.cb with
    | some o =>
      have ho := List.find?_some hf
      simp only [Bool.and_eq_true, Bool.not_eq_true'] at ho
      simp only [Option.some_or]
      rw [if_neg]
      rintro ⟨h1, h2 | h2⟩
      · exact hex o (List.mem_of_find?_eq_some hf) ho.1 h1 h2
      · rw [ho.2] at h2; simp at h2
    | none =>
      simp only [Option.none_or]
      cases hg : rs.find? (covers · q) with
      | none => simp only [List.find?_cons, List.find?_nil]; cases covers r q <;> cases r.cb <;> rfl
      | some o =>
        have ho := List.find?_some hg
        have hm := List.mem_of_find?_eq_some hg
        have hocb : o.cb = true := by
          have := List.find?_eq_none.1 hf o hm
          simpa [ho] using this
        simp only [Option.some_or, List.find?_cons, List.find?_nil]
        cases hc : covers r q with
        | false => simp
        | true =>
          have := hex o hm ho hc
          cases hrc : r.cb <;> simp [this, hocb]

/-- If the rules for a string are all callbacks or all plain, and none is marked `!`, the first one is in charge. -/
theorem best_first (rs : List Rule) (h : ∀ r ∈ rs, r.ci = false) (q : List Nat)
    (hcb : ∀ r ∈ rs, ∀ r' ∈ rs, covers r q = true → covers r' q = true → r.cb = r'.cb) : best rs q = rs.find? (covers · q) := by
  rw [best_plain_first rs h q]
  cases hf : rs.find? fun r => covers r q && !r.cb with
  | none => rfl
  | some o =>
    have ho := List.find?_some hf
    simp only [Bool.and_eq_true, Bool.not_eq_true'] at ho
    rw [Option.some_or, ← hf]
    have hm := List.mem_of_find?_eq_some hf
    clear hf h
    induction rs with
    | nil => rfl
    | cons r rs ih =>
      simp only [List.find?_cons]
      cases hc : covers r q with
      | true => simp [hcb r (by simp) o hm hc ho.1, ho.2]
      | false =>
        simp only [Bool.false_and]
        refine ih (fun a ha b hb => hcb a (by simp [ha]) b (by simp [hb])) ?_
        rcases List.mem_cons.1 hm with rfl | hm
        · rw [hc] at ho; simp at ho
        · exact hm

theorem best_lines (S : Rules Nat (List Datum)) (q : List Nat) : best (lines S) q = (lines S).find? (covers · q) := by
  apply best_first
  · intro r hr
    obtain ⟨x, _, rfl⟩ := List.mem_map.1 hr
    rfl
  · intro r hr r' hr' _ _
    obtain ⟨x, _, rfl⟩ := List.mem_map.1 hr
    obtain ⟨y, _, rfl⟩ := List.mem_map.1 hr'
    rfl

theorem find_lines_cb (S : Rules Nat (List Datum)) (q : List Nat) (r : Rule) (h : (lines S).find? (covers · q) = some r) : r.cb = false := by
  have := List.mem_of_find?_eq_some h
  obtain ⟨x, _, rfl⟩ := List.mem_map.1 this
  rfl

theorem begins_single (p q : List Nat) (b : List Nat) :
    begins { pat := p.map fun c => (c, c), dat := b } q = (q.isPrefixOf p && p != q) := by
  simp only [begins, List.length_map]
  rw [← List.map_take, within_single]
  rw [Bool.eq_iff_iff]
  simp only [Bool.and_eq_true, decide_eq_true_eq, bne_iff_ne, List.isPrefixOf_iff_prefix]
  constructor
  · rintro ⟨h1, h2⟩
    refine ⟨h2 ▸ List.take_prefix _ _, ?_⟩
    rintro rfl
    omega
  · rintro ⟨h1, h2⟩
    refine ⟨?_, (List.prefix_iff_eq_take.1 h1).symm⟩
    rcases Nat.lt_or_ge q.length p.length with h | h
    · exact h
    · exact absurd (h1.eq_of_length (by have := h1.length_le; omega)).symm h2

theorem any_lines (S : Rules Nat (List Datum)) (q : List Nat) : (lines S).any (begins · q) = Verif.Engine.extendable S q := by
  simp only [lines, Verif.Engine.extendable, List.any_map]
  congr 1
  funext r
  exact begins_single _ _ _

theorem meaning_lines (S : Rules Nat (List Datum)) (q : List Nat) :
    meaning (lines S) q = if (lookup S q).isSome ∨ Verif.Engine.extendable S q = true then
      some (Verif.Engine.nodeStatus S q, ((lookup S q).map symbols).getD []) else none := by
  have h1 := find_lines S q
  have h3 := find_lines_cb S q
  unfold meaning Verif.Engine.nodeStatus
  rw [any_lines, best_lines]
  cases hf : (lines S).find? (covers · q) with
  | none =>
    rw [hf] at h1
    have : lookup S q = none := by
      cases h : lookup S q with
      | none => rfl
      | some x => rw [h] at h1; simp at h1
    rw [this]
    cases Verif.Engine.extendable S q <;> simp
  | some r =>
    rw [hf] at h1
    have hcb := h3 r hf
    cases h : lookup S q with
    | none => rw [h] at h1; simp at h1
    | some x =>
      rw [h] at h1
      simp only [Option.map_some, Option.some.injEq] at h1
      cases Verif.Engine.extendable S q <;> simp [hcb, h1]

theorem datums_symbols (ds : List Datum) (h : ∀ d ∈ ds, d ≠ [] ∧ IsBytes d) : datums (symbols ds) = ds := by
  induction ds with
  | nil => exact datums_nil
  | cons d ds ih =>
    have hd := h d (by simp)
    have hno : 256 ∉ d := fun e => by have := hd.2 256 e; omega
    cases ds with
    | nil =>
      simp only [symbols]
      obtain ⟨h1, h2⟩ := after_whole hno
      rw [datums_cons hd.1, h1, h2, datums_nil]
    | cons e ds =>
      simp only [symbols]
      obtain ⟨h1, h2⟩ := after_split (p := symbols (e :: ds)) hno
      rw [datums_cons (by simp), h1, h2, ih (fun x hx => h x (by simp [hx]))]

theorem lookup_mem {S : Rules Nat (List Datum)} {q : List Nat} {b : List Datum} (h : lookup S q = some b) : (q, b) ∈ S := by
  induction S with
  | nil => simp [lookup] at h
  | cons r S ih =>
    simp only [lookup] at h
    split at h
    · rename_i e
      simp only [Option.some.injEq] at h
      subst e h
      simp
    · simp [ih h]

theorem noClash_plain (rs : List Rule) (h : ∀ r ∈ rs, r.ci = false ∧ r.cb = false) : NoClash rs := by
  refine List.pairwise_iff_getElem.2 ?_
  intro i j hi hj _ q h1 h2
  have ha : rs[i] ∈ rs := List.getElem_mem hi
  have hb : rs[j] ∈ rs := List.getElem_mem hj
  refine .inl ⟨(h _ ha).2, ?_⟩
  simp only [covers, (h _ ha).1, (h _ hb).1] at h1 h2
  rw [exactly_within h1, exactly_within h2, ← Arena.within_length h1, ← Arena.within_length h2]
  exact Nat.le_refl _

/-- The compiled file of rules for single strings represents the rules. -/
theorem compiled_represents (S : Rules Nat (List Datum)) (hp : ∀ r ∈ S, r.1 ≠ [] ∧ ∀ c ∈ r.1, c ≤ 256)
    (hd : ∀ r ∈ S, (∀ d ∈ r.2, d ≠ [] ∧ IsBytes d) ∧ r.2.length ≤ 1024) (hsz : (emit (build (lines S))).offset < 4294967296) :
    Represents (compiled π (lines S)) S := by
  have hP : ∀ r ∈ lines S, Plain r := by
    intro r hr
    obtain ⟨x, hx, rfl⟩ := List.mem_map.1 hr
    refine ⟨by simpa using (hp x hx).1, ?_⟩
    intro b hb
    obtain ⟨c, hc, rfl⟩ := List.mem_map.1 hb
    exact (hp x hx).2 c hc
  have hC : NoClash (lines S) := by
    apply noClash_plain
    intro r hr
    obtain ⟨x, _, rfl⟩ := List.mem_map.1 hr
    exact ⟨rfl, rfl⟩
  have hD : ∀ r ∈ lines S, (datums r.dat).length ≤ 1024 := by
    intro r hr
    obtain ⟨x, hx, rfl⟩ := List.mem_map.1 hr
    simp only
    rw [datums_symbols _ (hd x hx).1]
    exact (hd x hx).2
  have key := fun q hq => compiled_lookup (π := π) (lines S) hP hC hsz hD q hq
  have hlk : ∀ q, (lookup S q).isSome ∨ Verif.Engine.extendable S q = true ↔ ∃ r ∈ S, q <+: r.1 := by
    intro q
    constructor
    · rintro (h | h)
      · obtain ⟨b, hb⟩ := Option.isSome_iff_exists.1 h
        exact ⟨_, lookup_mem hb, List.prefix_refl _⟩
      · simp only [Verif.Engine.extendable, List.any_eq_true, Bool.and_eq_true, List.isPrefixOf_iff_prefix] at h
        obtain ⟨r, h1, h2, _⟩ := h
        exact ⟨r, h1, h2⟩
    · rintro ⟨r, h1, h2⟩
      by_cases e : r.1 = q
      · left
        have : ∀ T : Rules Nat (List Datum), r ∈ T → (lookup T q).isSome := by
          intro T hT
          induction T with
          | nil => simp at hT
          | cons x T ih =>
            simp only [lookup]
            split
            · rfl
            · rename_i hne
              rcases List.mem_cons.1 hT with rfl | hT
              · exact absurd e hne
              · exact ih hT
        exact this S h1
      · right
        simp only [Verif.Engine.extendable, List.any_eq_true, Bool.and_eq_true, List.isPrefixOf_iff_prefix]
        exact ⟨r, h1, h2, by simpa using e⟩
  refine ⟨compiled_root _ hP hC hsz, ?_, ?_, ?_⟩
  · intro q hq
    have := key q hq
    rw [meaning_lines] at this
    rw [← hlk q]
    by_cases h : (lookup S q).isSome ∨ Verif.Engine.extendable S q = true
    · rw [if_pos h] at this
      obtain ⟨o, h1, _⟩ := this
      simp [h1, h]
    · rw [if_neg h] at this
      simp only at this
      simp only [this, h]
      simp
  · intro q o hq ho
    have := key q hq
    rw [meaning_lines] at this
    by_cases h : (lookup S q).isSome ∨ Verif.Engine.extendable S q = true
    · rw [if_pos h] at this
      obtain ⟨o', h1, h2, _⟩ := this
      rw [ho] at h1; cases h1
      exact h2
    · rw [if_neg h] at this
      simp only at this
      rw [ho] at this; simp at this
  · intro q o b ho hb
    have hq : q ≠ [] := by
      rintro rfl
      exact (hp _ (lookup_mem hb)).1 rfl
    have := key q hq
    rw [meaning_lines, if_pos (.inl (by rw [hb]; rfl)), hb] at this
    simp only [Option.map_some, Option.getD_some] at this
    obtain ⟨o', h1, _, h3⟩ := this
    rw [ho] at h1; cases h1
    rw [h3, datums_symbols _ (hd _ (lookup_mem hb)).1]

end Verif.MkTable
