import Verif.Proofs.MkTree

namespace Verif.MkTable
open Verif.Engine (Status Datum Codec)
namespace Arena

theorem good_bound {A : Arena} (h : Good A) (s : Nat) {c : Nat} (hc : c ≤ 256) : Good (A.bound s c) := by
  have hk : ∀ n, ((A.bound s c).node n).kids = (A.node n).kids := by
    intro n; rw [bound_node]; split
    · rename_i e; subst e; rfl
    · rfl
  have hst : ∀ n, ((A.bound s c).node n).status = (A.node n).status := by
    intro n; rw [bound_node]; split
    · rename_i e; subst e; rfl
    · rfl
  have hd : ∀ n, ((A.bound s c).node n).data = (A.node n).data := by
    intro n; rw [bound_node]; split
    · rename_i e; subst e; rfl
    · rfl
  constructor
  · exact h.pos
  · intro a x k; rw [hk]; exact h.range a x k
  · intro a x k; rw [hk]; intro hx
    have := h.bounds a x k hx
    rw [bound_node]
    split
    · rename_i e; subst e
      refine ⟨rfl, ?_, ?_⟩
      · simp only; split <;> omega
      · simp only; split <;> omega
    · exact this
  · intro a
    have := h.fin a
    rw [bound_node]
    split
    · rename_i e; subst e; simp only; split <;> omega
    · exact this
  · intro a x a' x' k; rw [hk, hk, hst]; exact h.tree a x a' x' k
  · intro k x; rw [hk, hst]; exact h.leaf k x
  · intro d k hx; rw [hst, hd]; exact h.cbs d k hx
  · rw [hst]; exact h.root
  · intro a x k; rw [hk, hst]; exact h.other a x k
  · intro a; rw [bound_node]; split
    · intro e; simp at e
    · exact h.nobase a
  · intro a
    have := h.small a
    rw [bound_node]; split
    · rename_i e; subst e; simp only; split <;> omega
    · exact this

theorem bound_find (A : Arena) (s c : Nat) (p : List Nat) : (A.bound s c).find p = A.find p := by
  apply find_same
  intro n; rw [bound_node]; split
  · rename_i e; subst e; rfl
  · rfl

theorem bound_content (A : Arena) (s c k : Nat) : content ((A.bound s c).node k) = content (A.node k) := by
  rw [bound_node]; split
  · rename_i e; subst e; rfl
  · rfl

theorem bound_status (A : Arena) (s c k : Nat) : ((A.bound s c).node k).status = (A.node k).status := by
  rw [bound_node]; split
  · rename_i e; subst e; rfl
  · rfl

theorem bound_kids (A : Arena) (s c k : Nat) : ((A.bound s c).node k).kids = (A.node k).kids := by
  rw [bound_node]; split
  · rename_i e; subst e; rfl
  · rfl

theorem bound_see (A : Arena) (s c : Nat) (p : List Nat) : (A.bound s c).see p = A.see p := by
  unfold see
  rw [bound_find]
  cases A.find p with
  | none => rfl
  | some k => simp [bound_content]

/-- Changing status, data and level of a node that is not shared. -/
theorem good_put {A : Arena} (h : Good A) {k : Nat} (hk : 0 < k) (hs : (A.node k).status ≠ .subroutine) {st : Status} {d : List Nat} {v : Nat}
    (h1 : st ≠ .subroutine) (h2 : st ≠ .deadend) : Good (A.put k { A.node k with status := st, data := d, level := v }) := by
  have hkid : ∀ n, ((A.put k { A.node k with status := st, data := d, level := v }).node n).kids = (A.node n).kids := by
    intro n; rw [put_node]; split
    · rename_i e; subst e; rfl
    · rfl
  have hold : ∀ n, ((A.put k { A.node k with status := st, data := d, level := v }).node n).hasBase = (A.node n).hasBase ∧
      ((A.put k { A.node k with status := st, data := d, level := v }).node n).beg = (A.node n).beg ∧
      ((A.put k { A.node k with status := st, data := d, level := v }).node n).fin = (A.node n).fin := by
    intro n; rw [put_node]; split
    · rename_i e; subst e; exact ⟨rfl, rfl, rfl⟩
    · exact ⟨rfl, rfl, rfl⟩
  have hsub : ∀ n, ((A.put k { A.node k with status := st, data := d, level := v }).node n).status = .subroutine ↔ (A.node n).status = .subroutine := by
    intro n; rw [put_node]; split
    · rename_i e; subst e; simp only; exact ⟨fun e => absurd e h1, fun e => absurd e hs⟩
    · rfl
  constructor
  · exact h.pos
  · intro a x b; rw [hkid]; exact h.range a x b
  · intro a x b; rw [hkid, (hold a).1, (hold a).2.1, (hold a).2.2]; exact h.bounds a x b
  · intro a; rw [(hold a).2.2]; exact h.fin a
  · intro a x a' x' b; rw [hkid, hkid, ne_eq, hsub]; exact h.tree a x a' x' b
  · intro b x; rw [hkid, hsub]; exact h.leaf b x
  · intro e b hb
    have := h.cbs e b hb
    have hne : b ≠ k := by rintro rfl; exact hs this.2.2.1
    rw [put_node, if_neg hne]
    exact this
  · rw [put_node, if_neg (by omega)]; exact h.root
  · intro a x b; rw [hkid]; intro hb
    rw [put_node]; split
    · exact h2
    · exact h.other a x b hb
  · intro a; rw [(hold a).1, (hold a).2.1, (hold a).2.2]; exact h.nobase a
  · intro a; rw [(hold a).2.1]; exact h.small a

theorem put_find (A : Arena) (k : Nat) (st : Status) (d : List Nat) (v : Nat) (p : List Nat) :
    (A.put k { A.node k with status := st, data := d, level := v }).find p = A.find p := by
  apply find_same
  intro n; rw [put_node]; split
  · rename_i e; subst e; rfl
  · rfl

theorem put_see {A : Arena} (h : Good A) {k : Nat} (hs : (A.node k).status ≠ .subroutine) (st : Status) (d : List Nat) (v : Nat)
    {p : List Nat} (hp : A.find p = some k) (q : List Nat) :
    (A.put k { A.node k with status := st, data := d, level := v }).see q =
      if q = p then some ⟨st, d, if isCb st then 0 else v⟩ else A.see q := by
  unfold see
  rw [put_find]
  cases hq : A.find q with
  | none =>
    rw [if_neg]
    · rfl
    · rintro rfl; rw [hp] at hq; simp at hq
  | some n =>
    simp only [Option.map_some, put_node]
    by_cases e : n = k
    · subst e
      rw [if_pos (h.unique hq hp hs)]
      simp [content]
    · rw [if_neg e, if_neg]
      rintro rfl
      rw [hp] at hq
      exact e (Option.some.inj hq).symm

/-- A node that is still to be created has no transitions. -/
theorem Good.fresh {A : Arena} (h : Good A) {n : Nat} (hn : A.count ≤ n) (x : Nat) : (A.node n).kids x = none := by
  cases hx : (A.node n).kids x with
  | none => rfl
  | some k => have := (h.range _ _ _ hx).1; omega

/-- A new leaf behind node `s`. -/
theorem good_new {A : Arena} (h : Good A) {s c : Nat} (hsc : s < A.count) (hs : (A.node s).status ≠ .subroutine) (hc : c ≤ 256) {n : Node}
    (hn : n.status ≠ .deadend) (hn0 : ∀ x, n.kids x = none) (hb : n.beg = 65535) (hf : n.fin = 0) :
    Good ((A.new n).edge s c A.count) := by
  have hpos := h.pos
  have hkid : ∀ a x, (((A.new n).edge s c A.count).node a).kids x =
      if a = s ∧ x = c then some A.count else (A.node a).kids x := by
    intro a x
    rw [edge_node]
    by_cases ha : a = s
    · subst ha
      simp only [if_true, new_node, if_neg (show ¬ a = A.count by omega), true_and]
    · simp only [if_neg ha, new_node, ha, false_and, if_false]
      split
      · rename_i e; subst e; rw [hn0, h.fresh (Nat.le_refl _)]
      · rfl
  have hst : ∀ a, a ≠ A.count → (((A.new n).edge s c A.count).node a).status = (A.node a).status := by
    intro a ha
    rw [edge_node]
    split
    · rename_i e; subst e; simp [ha]
    · simp [ha]
  have hdat : ∀ a, a ≠ A.count → (((A.new n).edge s c A.count).node a).data = (A.node a).data := by
    intro a ha
    rw [edge_node]
    split
    · rename_i e; subst e; simp [ha]
    · simp [ha]
  have hstn : (((A.new n).edge s c A.count).node A.count).status = n.status := by
    rw [edge_node, if_neg (by omega)]; simp
  have hnew : ∀ a, a ≠ s → ((A.new n).edge s c A.count).node a = if a = A.count then n else A.node a := by
    intro a ha; rw [edge_node, if_neg ha, new_node]
  have hself : ((A.new n).edge s c A.count).node s = { A.node s with
      hasBase := true, beg := if c < (A.node s).beg then c else (A.node s).beg, fin := if c ≥ (A.node s).fin then c + 1 else (A.node s).fin
      kids := fun x => if x = c then some A.count else (A.node s).kids x } := by
    rw [edge_node, if_pos rfl]; simp only [new_node, if_neg (show ¬ s = A.count by omega)]
  constructor
  · simp only [edge_count, new_count]; omega
  · intro a x k; rw [hkid]
    simp only [edge_count, new_count]
    split
    · rename_i e; intro hk; simp only [Option.some.injEq] at hk; omega
    · intro hk; have := h.range _ _ _ hk; omega
  · intro a x k; rw [hkid]
    by_cases ha : a = s
    · subst ha
      rw [hself]
      intro hk
      refine ⟨rfl, ?_, ?_⟩ <;> simp only
      · by_cases hx : x = c
        · subst hx; split <;> omega
        · rw [if_neg (by rintro ⟨_, e⟩; exact hx e)] at hk
          have := h.bounds _ _ _ hk
          split <;> omega
      · by_cases hx : x = c
        · subst hx; split <;> omega
        · rw [if_neg (by rintro ⟨_, e⟩; exact hx e)] at hk
          have := h.bounds _ _ _ hk
          split <;> omega
    · rw [if_neg (by rintro ⟨e, _⟩; exact ha e), hnew a ha]
      intro hk
      rw [if_neg (by have := h.range _ _ _ hk; omega)]
      exact h.bounds _ _ _ hk
  · intro a
    by_cases ha : a = s
    · subst ha; rw [hself]; simp only; have := h.fin a; split <;> omega
    · rw [hnew a ha]; split
      · omega
      · exact h.fin a
  · intro a x a' x' k; rw [hkid, hkid]
    by_cases e1 : a = s ∧ x = c
    · rw [if_pos e1]
      by_cases e2 : a' = s ∧ x' = c
      · intros; exact ⟨e1.1.trans e2.1.symm, e1.2.trans e2.2.symm⟩
      · rw [if_neg e2]
        intro hk hk' _
        simp only [Option.some.injEq] at hk; subst hk
        have := h.range _ _ _ hk'; omega
    · rw [if_neg e1]
      by_cases e2 : a' = s ∧ x' = c
      · rw [if_pos e2]
        intro hk' hk _
        simp only [Option.some.injEq] at hk; subst hk
        have := h.range _ _ _ hk'; omega
      · rw [if_neg e2]
        intro hk hk' hne
        rw [hst k (by have := h.range _ _ _ hk; omega)] at hne
        exact h.tree _ _ _ _ _ hk hk' hne
  · intro k x hk
    rw [hkid]
    by_cases ek : k = A.count
    · subst ek
      rw [if_neg (by rintro ⟨e, _⟩; omega), h.fresh (Nat.le_refl _)]
    · rw [hst k ek] at hk
      rw [if_neg (by rintro ⟨e, _⟩; subst e; exact hs hk)]
      exact h.leaf _ _ hk
  · intro d k hk
    have := h.cbs d k hk
    simp only [edge_count, new_count]
    rw [hst k (by omega), hdat k (by omega)]
    exact ⟨this.1, by omega, this.2.2⟩
  · rw [hst 0 (by omega)]; exact h.root
  · intro a x k; rw [hkid]
    split
    · intro hk; simp only [Option.some.injEq] at hk; subst hk; rw [hstn]; exact hn
    · intro hk; rw [hst k (by have := h.range _ _ _ hk; omega)]; exact h.other _ _ _ hk
  · intro a
    by_cases ha : a = s
    · subst ha; rw [hself]; intro e; simp at e
    · rw [hnew a ha]; split
      · intro _; exact ⟨hb, hf⟩
      · exact h.nobase a
  · intro a
    by_cases ha : a = s
    · subst ha; rw [hself]; simp only; have := h.small a; split <;> omega
    · rw [hnew a ha]; split
      · omega
      · exact h.small a

theorem new_find {A : Arena} (h : Good A) {p : List Nat} {s c : Nat} (hp : A.find p = some s) (hs : (A.node s).status ≠ .subroutine) {n : Node}
    (hn0 : ∀ x, n.kids x = none) (ho : ∀ k x, (A.node s).kids c = some k → (A.node k).kids x = none) (q : List Nat) :
    ((A.new n).edge s c A.count).find q = if q = p ++ [c] then some A.count else A.find q := by
  have hsc := h.lt hp
  apply find_edge h hp hs
  · intro a x _
    rw [edge_node]
    by_cases ha : a = s
    · subst ha
      simp only [if_true, new_node, if_neg (show ¬ a = A.count by omega), true_and]
    · simp only [if_neg ha, new_node, ha, false_and, if_false]
      split
      · rename_i e; subst e; rw [hn0, h.fresh (Nat.le_refl _)]
      · rfl
  · intro x; exact h.fresh (Nat.le_refl _) x
  · omega
  · exact ho

theorem new_see {A : Arena} (h : Good A) {p : List Nat} {s c : Nat} (hp : A.find p = some s) (hs : (A.node s).status ≠ .subroutine) {n : Node}
    (hn0 : ∀ x, n.kids x = none) (ho : ∀ k x, (A.node s).kids c = some k → (A.node k).kids x = none) (q : List Nat) :
    ((A.new n).edge s c A.count).see q = if q = p ++ [c] then some (content n) else A.see q := by
  unfold see
  rw [new_find h hp hs hn0 ho]
  have hsc := h.lt hp
  by_cases e : q = p ++ [c]
  · rw [if_pos e, if_pos e, Option.map_some, edge_node, if_neg (by omega), new_node, if_pos rfl]
  · rw [if_neg e, if_neg e]
    cases hq : A.find q with
    | none => rfl
    | some k =>
      have hkc := h.lt hq
      simp only [Option.map_some, Option.some.injEq]
      rw [edge_node]
      by_cases ek : k = s
      · subst ek
        simp only [if_true, new_node, if_neg (show ¬ k = A.count by omega)]
        rfl
      · rw [if_neg ek, new_node, if_neg (by omega)]

/-- A transition to a shared node. -/
theorem good_share {A : Arena} (h : Good A) {s c k v : Nat} {dat : List Nat} (hsc : s < A.count) (hs : (A.node s).status ≠ .subroutine)
    (hc : c ≤ 256) (hk : A.cbs dat = some k) :
    Good ((A.put k { A.node k with data := dat, level := v }).edge s c k) := by
  obtain ⟨k0, k1, k2, k3⟩ := h.cbs dat k hk
  have hsk : s ≠ k := by rintro rfl; exact hs k2
  have hkid : ∀ a x, (((A.put k { A.node k with data := dat, level := v }).edge s c k).node a).kids x =
      if a = s ∧ x = c then some k else (A.node a).kids x := by
    intro a x
    rw [edge_node]
    by_cases ha : a = s
    · subst ha; simp [hsk]
    · simp only [if_neg ha, put_node, ha, false_and, if_false]
      split
      · rename_i e; subst e; rfl
      · rfl
  have hst : ∀ a, (((A.put k { A.node k with data := dat, level := v }).edge s c k).node a).status = (A.node a).status := by
    intro a
    rw [edge_node]
    split
    · rename_i e; subst e; simp [hsk]
    · simp only [put_node]; split
      · rename_i e; subst e; rfl
      · rfl
  have hdat : ∀ a, (((A.put k { A.node k with data := dat, level := v }).edge s c k).node a).data = (A.node a).data := by
    intro a
    rw [edge_node]
    split
    · rename_i e; subst e; simp [hsk]
    · simp only [put_node]; split
      · rename_i e; subst e; exact k3.symm
      · rfl
  have hrest : ∀ a, a ≠ s → (((A.put k { A.node k with data := dat, level := v }).edge s c k).node a).hasBase = (A.node a).hasBase ∧
      (((A.put k { A.node k with data := dat, level := v }).edge s c k).node a).beg = (A.node a).beg ∧
      (((A.put k { A.node k with data := dat, level := v }).edge s c k).node a).fin = (A.node a).fin := by
    intro a ha
    rw [edge_node, if_neg ha, put_node]; split
    · rename_i e; subst e; exact ⟨rfl, rfl, rfl⟩
    · exact ⟨rfl, rfl, rfl⟩
  have hself : ((A.put k { A.node k with data := dat, level := v }).edge s c k).node s = { A.node s with
      hasBase := true, beg := if c < (A.node s).beg then c else (A.node s).beg, fin := if c ≥ (A.node s).fin then c + 1 else (A.node s).fin
      kids := fun x => if x = c then some k else (A.node s).kids x } := by
    rw [edge_node, if_pos rfl]; simp only [put_node, if_neg hsk]
  constructor
  · exact h.pos
  · intro a x b; rw [hkid]
    simp only [edge_count, put_count]
    split
    · rename_i e; intro hb; simp only [Option.some.injEq] at hb; omega
    · intro hb; exact h.range _ _ _ hb
  · intro a x b; rw [hkid]
    by_cases ha : a = s
    · subst ha
      rw [hself]
      intro hk
      refine ⟨rfl, ?_, ?_⟩ <;> simp only
      · by_cases hx : x = c
        · subst hx; split <;> omega
        · rw [if_neg (by rintro ⟨_, e⟩; exact hx e)] at hk
          have := h.bounds _ _ _ hk
          split <;> omega
      · by_cases hx : x = c
        · subst hx; split <;> omega
        · rw [if_neg (by rintro ⟨_, e⟩; exact hx e)] at hk
          have := h.bounds _ _ _ hk
          split <;> omega
    · rw [if_neg (by rintro ⟨e, _⟩; exact ha e), (hrest a ha).1, (hrest a ha).2.1, (hrest a ha).2.2]
      exact h.bounds _ _ _
  · intro a
    by_cases ha : a = s
    · subst ha; rw [hself]; simp only; have := h.fin a; split <;> omega
    · rw [(hrest a ha).2.2]; exact h.fin a
  · intro a x a' x' b; rw [hkid, hkid, hst]
    by_cases e1 : a = s ∧ x = c
    · rw [if_pos e1]; intro hb _ hne; simp only [Option.some.injEq] at hb; subst hb; exact absurd k2 hne
    · rw [if_neg e1]
      by_cases e2 : a' = s ∧ x' = c
      · rw [if_pos e2]; intro _ hb hne; simp only [Option.some.injEq] at hb; subst hb; exact absurd k2 hne
      · rw [if_neg e2]; exact h.tree _ _ _ _ _
  · intro b x hb
    rw [hst] at hb
    rw [hkid, if_neg (by rintro ⟨e, _⟩; subst e; exact hs hb)]
    exact h.leaf _ _ hb
  · intro d b hb; rw [hst, hdat]; exact h.cbs d b hb
  · rw [hst]; exact h.root
  · intro a x b; rw [hkid, hst]
    split
    · intro hb; simp only [Option.some.injEq] at hb; subst hb; rw [k2]; simp
    · exact h.other _ _ _
  · intro a
    by_cases ha : a = s
    · subst ha; rw [hself]; intro e; simp at e
    · rw [(hrest a ha).1, (hrest a ha).2.1, (hrest a ha).2.2]; exact h.nobase a
  · intro a
    by_cases ha : a = s
    · subst ha; rw [hself]; simp only; have := h.small a; split <;> omega
    · rw [(hrest a ha).2.1]; exact h.small a

theorem share_see {A : Arena} (h : Good A) {p : List Nat} {s c k v : Nat} {dat : List Nat} (hp : A.find p = some s)
    (hs : (A.node s).status ≠ .subroutine) (hk : A.cbs dat = some k) (hno : (A.node s).kids c = none) (q : List Nat) :
    ((A.put k { A.node k with data := dat, level := v }).edge s c k).find q = (if q = p ++ [c] then some k else A.find q) ∧
    ((A.put k { A.node k with data := dat, level := v }).edge s c k).see q =
      if q = p ++ [c] then some ⟨.subroutine, dat, 0⟩ else A.see q := by
  obtain ⟨k0, k1, k2, k3⟩ := h.cbs dat k hk
  have hsk : s ≠ k := by rintro rfl; exact hs k2
  have hf : ∀ q, ((A.put k { A.node k with data := dat, level := v }).edge s c k).find q = if q = p ++ [c] then some k else A.find q := by
    apply find_edge h hp hs
    · intro a x _
      rw [edge_node]
      by_cases ha : a = s
      · subst ha; simp [hsk]
      · simp only [if_neg ha, put_node, ha, false_and, if_false]
        split
        · rename_i e; subst e; rfl
        · rfl
    · intro x; exact h.leaf _ _ k2
    · exact hsk
    · intro b x hb; rw [hno] at hb; simp at hb
  have hc : ∀ a, content (((A.put k { A.node k with data := dat, level := v }).edge s c k).node a) = content (A.node a) := by
    intro a
    rw [edge_node]
    split
    · rename_i e; subst e; simp [hsk, content]
    · rw [put_node]; split
      · rename_i e; subst e; simp [content, k2, k3, isCb]
      · rfl
  refine ⟨hf q, ?_⟩
  unfold see
  rw [hf]
  by_cases e : q = p ++ [c]
  · rw [if_pos e, if_pos e, Option.map_some, hc]
    simp [content, k2, k3, isCb]
  · rw [if_neg e, if_neg e]
    cases A.find q with
    | none => rfl
    | some b => rw [Option.map_some, Option.map_some, hc]

end Arena
end Verif.MkTable
