import Verif.Model.MkTable

/-! The automaton the table compiler builds, seen as a function from strings of symbols to the content of the state they
reach. -/

namespace Verif.MkTable
open Verif.Engine (Status Datum Codec)

theorem snocInd {α : Type} {P : List α → Prop} (l : List α) (nil : P []) (snoc : ∀ l a, P l → P (l ++ [a])) : P l := by
  have : ∀ r : List α, P r.reverse := by
    intro r
    induction r with
    | nil => exact nil
    | cons a r ih => rw [List.reverse_cons]; exact snoc _ _ ih
  simpa using this l.reverse

namespace Arena

/-- The node reached by a string from node `s`. -/
def walk (A : Arena) (s : Nat) : List Nat → Option Nat
  | [] => some s
  | c :: cs => ((A.node s).kids c).bind fun k => A.walk k cs

/-- The node reached from the root. -/
def find (A : Arena) (p : List Nat) : Option Nat := A.walk 0 p

theorem walk_append (A : Arena) (p q : List Nat) (s : Nat) : A.walk s (p ++ q) = (A.walk s p).bind fun k => A.walk k q := by
  induction p generalizing s with
  | nil => rfl
  | cons c cs ih =>
    simp only [List.cons_append, walk]
    cases (A.node s).kids c with
    | none => rfl
    | some k => simp only [Option.bind_some]; exact ih k

theorem find_snoc (A : Arena) (p : List Nat) (c : Nat) : A.find (p ++ [c]) = (A.find p).bind fun k => (A.node k).kids c := by
  unfold find
  rw [walk_append]
  congr 1
  funext k
  simp only [walk]
  cases (A.node k).kids c <;> rfl

@[simp] theorem find_nil (A : Arena) : A.find [] = some 0 := rfl

/-- Is the state one of a callback? -/
def isCb (st : Status) : Bool := st == .subroutine || st == .submatchSubroutine

/-- What the invariants need: the nodes form a tree, except that SUBROUTINE nodes are shared and have no transitions. -/
structure Good (A : Arena) : Prop where
  pos : 0 < A.count
  range : ∀ s c k, (A.node s).kids c = some k → s < A.count ∧ 0 < k ∧ k < A.count
  bounds : ∀ s c k, (A.node s).kids c = some k → (A.node s).hasBase = true ∧ (A.node s).beg ≤ c ∧ c < (A.node s).fin
  fin : ∀ s, (A.node s).fin ≤ 257
  tree : ∀ s c s' c' k, (A.node s).kids c = some k → (A.node s').kids c' = some k → (A.node k).status ≠ .subroutine → s = s' ∧ c = c'
  leaf : ∀ k c, (A.node k).status = .subroutine → (A.node k).kids c = none
  cbs : ∀ d k, A.cbs d = some k → 0 < k ∧ k < A.count ∧ (A.node k).status = .subroutine ∧ (A.node k).data = d
  root : (A.node 0).status = .deadend
  other : ∀ s c k, (A.node s).kids c = some k → (A.node k).status ≠ .deadend
  nobase : ∀ s, (A.node s).hasBase = false → (A.node s).beg = 65535 ∧ (A.node s).fin = 0
  small : ∀ s, (A.node s).beg ≤ 65535

theorem Good.init : Good Arena.init where
  pos := by simp [Arena.init]
  range := by intro s c k h; simp [Arena.init] at h
  bounds := by intro s c k h; simp [Arena.init] at h
  fin := by intro s; simp [Arena.init]
  tree := by intro s c s' c' k h; simp [Arena.init] at h
  leaf := by intro k c h; simp [Arena.init] at h
  cbs := by intro d k h; simp [Arena.init] at h
  root := by simp [Arena.init]
  other := by intro s c k h; simp [Arena.init] at h
  nobase := by intro s h; simp [Arena.init]
  small := by intro s; simp [Arena.init]

/-- A node that is not shared is reached by one string only. -/
theorem Good.unique {A : Arena} (h : Good A) {p q : List Nat} {k : Nat} (hp : A.find p = some k) (hq : A.find q = some k)
    (hs : (A.node k).status ≠ .subroutine) : p = q := by
  induction p using snocInd generalizing q k with
  | nil =>
    simp only [find_nil, Option.some.injEq] at hp
    subst hp
    induction q using snocInd with
    | nil => rfl
    | snoc q c _ =>
      rw [find_snoc] at hq
      cases hf : A.find q with
      | none => rw [hf] at hq; simp at hq
      | some n => rw [hf] at hq; have := (h.range _ _ _ hq).2.1; omega
  | snoc p c ih =>
    rw [find_snoc] at hp
    cases hf : A.find p with
    | none => rw [hf] at hp; simp at hp
    | some n =>
      rw [hf] at hp
      simp only [Option.bind_some] at hp
      induction q using snocInd with
      | nil => simp only [find_nil, Option.some.injEq] at hq; subst hq; have := (h.range _ _ _ hp).2.1; omega
      | snoc q c' _ =>
        rw [find_snoc] at hq
        cases hg : A.find q with
        | none => rw [hg] at hq; simp at hq
        | some m =>
          rw [hg] at hq
          simp only [Option.bind_some] at hq
          obtain ⟨rfl, rfl⟩ := h.tree _ _ _ _ _ hp hq hs
          rw [ih hf hg ?_]
          intro e
          have := h.leaf _ c e
          rw [hp] at this; simp at this

theorem Good.lt {A : Arena} (h : Good A) {p : List Nat} {k : Nat} (hp : A.find p = some k) : k < A.count := by
  induction p using snocInd with
  | nil => simp only [find_nil, Option.some.injEq] at hp; subst hp; exact h.pos
  | snoc p c _ =>
    rw [find_snoc] at hp
    cases hf : A.find p with
    | none => rw [hf] at hp; simp at hp
    | some n => rw [hf] at hp; exact (h.range _ _ _ hp).2.2

/-- What a string finds: status, data and level (level is not kept for callbacks). -/
structure Content where
  status : Status
  data : List Nat
  level : Nat
  deriving DecidableEq

def content (n : Node) : Content := ⟨n.status, n.data, if isCb n.status then 0 else n.level⟩

def see (A : Arena) (p : List Nat) : Option Content := (A.find p).map fun k => content (A.node k)

/-! ### Changing transitions and contents -/

@[simp] theorem put_node (A : Arena) (i : Nat) (n : Node) (k : Nat) : (A.put i n).node k = if k = i then n else A.node k := rfl
@[simp] theorem put_count (A : Arena) (i : Nat) (n : Node) : (A.put i n).count = A.count := rfl
@[simp] theorem put_cbs (A : Arena) (i : Nat) (n : Node) : (A.put i n).cbs = A.cbs := rfl
@[simp] theorem new_node (A : Arena) (n : Node) (k : Nat) : (A.new n).node k = if k = A.count then n else A.node k := rfl
@[simp] theorem new_count (A : Arena) (n : Node) : (A.new n).count = A.count + 1 := rfl
@[simp] theorem new_cbs (A : Arena) (n : Node) : (A.new n).cbs = A.cbs := rfl
@[simp] theorem bound_count (A : Arena) (s c : Nat) : (A.bound s c).count = A.count := rfl
@[simp] theorem bound_cbs (A : Arena) (s c : Nat) : (A.bound s c).cbs = A.cbs := rfl
@[simp] theorem edge_count (A : Arena) (s c k : Nat) : (A.edge s c k).count = A.count := rfl
@[simp] theorem edge_cbs (A : Arena) (s c k : Nat) : (A.edge s c k).cbs = A.cbs := rfl

theorem bound_node (A : Arena) (s c k : Nat) : (A.bound s c).node k =
    if k = s then { A.node s with
      hasBase := true, beg := if c < (A.node s).beg then c else (A.node s).beg, fin := if c ≥ (A.node s).fin then c + 1 else (A.node s).fin }
    else A.node k := rfl

theorem edge_node (A : Arena) (s c t k : Nat) : (A.edge s c t).node k =
    if k = s then { A.node s with
      hasBase := true, beg := if c < (A.node s).beg then c else (A.node s).beg, fin := if c ≥ (A.node s).fin then c + 1 else (A.node s).fin
      kids := fun x => if x = c then some t else (A.node s).kids x }
    else A.node k := by
  simp only [edge, put_node, bound_node]
  by_cases h : k = s
  · subst h; simp
  · simp [h]

/-- The same transitions. -/
theorem find_same {A B : Arena} (h : ∀ k, (B.node k).kids = (A.node k).kids) (p : List Nat) : B.find p = A.find p := by
  induction p using snocInd with
  | nil => rfl
  | snoc p c ih =>
    rw [find_snoc, find_snoc, ih]
    congr 1
    funext k; rw [h k]

theorem append_single {p q : List Nat} {a b : Nat} : p ++ [a] = q ++ [b] ↔ p = q ∧ a = b := by
  constructor
  · intro h
    have := List.append_inj' h rfl
    exact ⟨this.1, by simpa using this.2⟩
  · rintro ⟨rfl, rfl⟩; rfl

/-- A new transition to a node without transitions, replacing at most a transition to such a node. -/
theorem find_edge {A B : Arena} (hg : Good A) {p : List Nat} {s c t : Nat} (hp : A.find p = some s) (hs : (A.node s).status ≠ .subroutine)
    (hk : ∀ n x, (n < A.count ∨ n = t) → (B.node n).kids x = if n = s ∧ x = c then some t else (A.node n).kids x)
    (ht : ∀ x, (A.node t).kids x = none) (hst : s ≠ t)
    (ho : ∀ k x, (A.node s).kids c = some k → (A.node k).kids x = none) (q : List Nat) :
    B.find q = if q = p ++ [c] then some t else A.find q := by
  induction q using snocInd with
  | nil => simp
  | snoc q x ih =>
    rw [find_snoc, ih]
    by_cases hq : q = p ++ [c]
    · subst hq
      have hne : (p ++ [c]) ++ [x] ≠ p ++ [c] := by
        intro e; have := congrArg List.length e; simp at this
      rw [if_pos rfl, if_neg hne, Option.bind_some, hk t x (.inr rfl), if_neg (by rintro ⟨e, _⟩; exact hst e.symm), ht]
      rw [find_snoc, find_snoc, hp, Option.bind_some]
      cases hc : (A.node s).kids c with
      | none => rfl
      | some k => rw [Option.bind_some, ho k x hc]
    · rw [if_neg hq]
      cases hf : A.find q with
      | none =>
        rw [find_snoc, hf]
        simp only [Option.bind_none]
        rw [if_neg]
        intro e
        rw [append_single] at e
        rw [e.1, hp] at hf; simp at hf
      | some n =>
        rw [Option.bind_some, hk n x (.inl (hg.lt hf)), find_snoc, hf, Option.bind_some]
        by_cases e : n = s ∧ x = c
        · rw [if_pos e, if_pos]
          rw [append_single]
          refine ⟨?_, e.2⟩
          rw [e.1] at hf
          exact hg.unique hf hp hs
        · rw [if_neg e, if_neg]
          rintro e2
          rw [append_single] at e2
          obtain ⟨rfl, rfl⟩ := e2
          rw [hp] at hf
          exact e ⟨(Option.some.inj hf).symm, rfl⟩

end Arena
end Verif.MkTable
