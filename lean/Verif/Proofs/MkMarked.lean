import Verif.Proofs.MkCompiled
import Verif.Model.Ebcdic

/-! Compiled tables some of whose rules are callbacks. -/

namespace Verif.Engine
open Verif.Spec
open Verif.Spec.Table
open Verif.MkTable

variable {π : Type}

theorem within_marked (p q : List Nat) (cb : Bool) (b : List Nat) :
    covers { pat := p.map fun c => (c, c), cb := cb, dat := b } q = decide (p = q) := by
  simp only [covers]; exact within_single p q

theorem find_marked (cb : List Nat → Bool) (S : Rules Nat Datum) (q : List Nat) :
    ((markedLines cb S).find? (covers · q)).map (fun r => (r.cb, r.dat)) = (lookup S q).map fun x => (cb q, x) := by
  induction S with
  | nil => rfl
  | cons r S ih =>
    simp only [markedLines, List.map_cons, List.find?_cons, within_marked, lookup] at ih ⊢
    by_cases h : r.1 = q
    · simp [h]
    · simp only [h, decide_false, if_false]
      exact ih

theorem begins_marked (p q : List Nat) (cb : Bool) (b : List Nat) :
    begins { pat := p.map fun c => (c, c), cb := cb, dat := b } q = (q.isPrefixOf p && p != q) := by
  rw [← begins_single p q b]; rfl

/-- What a marked table says. -/
theorem meaning_marked (cb : List Nat → Bool) (S : Rules Nat Datum) (q : List Nat) :
    meaning (markedLines cb S) q = (match lookup S q, S.any (fun r => q.isPrefixOf r.1 && r.1 != q) with
      | none, false => none
      | none, true => some (.cont, [])
      | some x, e => some (match cb q, e with
        | false, false => .match_
        | false, true => .submatch
        | true, false => .subroutine
        | true, true => .submatchSubroutine, x)) := by
  have h1 := find_marked cb S q
  have h2 : (markedLines cb S).any (begins · q) = S.any (fun r => q.isPrefixOf r.1 && r.1 != q) := by
    simp only [markedLines, List.any_map]
    congr 1
    funext r
    exact begins_marked _ _ _ _
  unfold meaning
  rw [h2, best_first _ (by intro r hr; obtain ⟨x, _, rfl⟩ := List.mem_map.1 hr; rfl) _ (by
    intro r hr r' hr' k1 k2
    obtain ⟨x, _, rfl⟩ := List.mem_map.1 hr
    obtain ⟨y, _, rfl⟩ := List.mem_map.1 hr'
    rw [within_marked, decide_eq_true_eq] at k1 k2
    rw [k1, k2])]
  cases hf : (markedLines cb S).find? (covers · q) with
  | none =>
    rw [hf] at h1
    cases h : lookup S q with
    | none => cases S.any (fun r => q.isPrefixOf r.1 && r.1 != q) <;> rfl
    | some x => rw [h] at h1; simp at h1
  | some r =>
    rw [hf] at h1
    cases h : lookup S q with
    | none => rw [h] at h1; simp at h1
    | some x =>
      rw [h] at h1
      simp only [Option.map_some, Option.some.injEq, Prod.mk.injEq] at h1
      rw [← h1.1, ← h1.2]
      cases S.any (fun r => q.isPrefixOf r.1 && r.1 != q) <;> rfl

/-- No two rules for the same string, the first of which is a callback. -/
def MarkedOk (cb : List Nat → Bool) (S : Rules Nat Datum) : Prop :=
  (S.Pairwise fun r r' => r.1 = r'.1 → cb r.1 = false) ∧ (∀ r ∈ S, r.1 ≠ [] ∧ IsBytes r.1 ∧ r.2 ≠ [] ∧ IsBytes r.2) ∧
  (emit (build (markedLines cb S))).offset < 4294967296

theorem marked_lookup {cb : List Nat → Bool} {S : Rules Nat Datum} (h : MarkedOk cb S) (q : List Nat) (hq : q ≠ []) :
    match meaning (markedLines cb S) q with
    | none => walk (compiled π (markedLines cb S)) 0 q = none
    | some (st, d) => ∃ o, walk (compiled π (markedLines cb S)) 0 q = some o ∧ (compiled π (markedLines cb S)).status o = st ∧
        (compiled π (markedLines cb S)).data o = datums d := by
  obtain ⟨h1, h2, h3⟩ := h
  refine compiled_lookup (markedLines cb S) ?_ ?_ h3 ?_ q hq
  · intro r hr
    obtain ⟨x, hx, rfl⟩ := List.mem_map.1 hr
    obtain ⟨k1, k2, _⟩ := h2 x hx
    refine ⟨by simpa using k1, ?_⟩
    intro b hb
    obtain ⟨c, hc, rfl⟩ := List.mem_map.1 hb
    have := k2 c hc
    simp only; omega
  · refine List.pairwise_map.2 (h1.imp ?_)
    intro r r' h q h3 h4
    rw [within_marked, decide_eq_true_eq] at h3 h4
    refine .inl ⟨h (h3.trans h4.symm), ?_⟩
    rw [h3, h4]
    exact Nat.le_refl _
  · intro r hr
    obtain ⟨x, hx, rfl⟩ := List.mem_map.1 hr
    obtain ⟨_, _, k3, k4⟩ := h2 x hx
    have := datums_symbols [x.2] (by simp [k3]; exact k4)
    simp only [symbols] at this
    simp only [this]; simp

theorem lookup_rule {S : Rules Nat Datum} {q : List Nat} {x : Datum} (h : lookup S q = some x) : (q, x) ∈ S := by
  induction S with
  | nil => simp [lookup] at h
  | cons r S ih =>
    simp only [lookup] at h
    split at h
    · rename_i e
      simp only [Option.some.injEq] at h
      subst e h
      simp
    · simp [ih h]

/-- Where a rule's string leads. -/
theorem marked_rule {cb : List Nat → Bool} {S : Rules Nat Datum} (h : MarkedOk cb S) {q : List Nat} {x : Datum} (hx : lookup S q = some x) :
    x ≠ [] ∧ IsBytes x ∧ ∃ o, walk (compiled π (markedLines cb S)) 0 q = some o ∧ (compiled π (markedLines cb S)).data o = [x] ∧
      (compiled π (markedLines cb S)).status o = (match cb q, S.any (fun r => q.isPrefixOf r.1 && r.1 != q) with
        | false, false => .match_
        | false, true => .submatch
        | true, false => .subroutine
        | true, true => .submatchSubroutine) := by
  obtain ⟨k1, k2, k3, k4⟩ := h.2.1 _ (lookup_rule hx)
  have := marked_lookup (π := π) h q k1
  rw [meaning_marked, hx] at this
  obtain ⟨o, o1, o2, o3⟩ := this
  have hd := datums_symbols [x] (by simp [k3]; exact k4)
  simp only [symbols] at hd
  exact ⟨k3, k4, o, o1, by rw [o3, hd], o2⟩

theorem marked_alive {cb : List Nat → Bool} {S : Rules Nat Datum} (h : MarkedOk cb S) {q : List Nat} (hq : q ≠ []) {o : Nat}
    (ho : walk (compiled π (markedLines cb S)) 0 q = some o) : (compiled π (markedLines cb S)).status o ≠ .deadend := by
  have := marked_lookup (π := π) h q hq
  cases hm : meaning (markedLines cb S) q with
  | none => rw [hm] at this; simp only at this; rw [this] at ho; simp at ho
  | some r =>
    rw [hm] at this
    obtain ⟨o', h1, h2, _⟩ := this
    rw [h1] at ho
    simp only [Option.some.injEq] at ho
    subst ho
    rw [h2]
    rw [meaning_marked] at hm
    split at hm
    · simp at hm
    · simp only [Option.some.injEq] at hm; rw [← hm]; simp
    · simp only [Option.some.injEq] at hm
      rw [← hm]
      cases cb q <;> cases S.any (fun r => q.isPrefixOf r.1 && r.1 != q) <;> simp

end Verif.Engine
