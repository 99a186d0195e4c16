import Verif.Model.Automaton
import Verif.Proofs.Tokens

/-! Basic lemmas about queues, automata and local runs of the engine. -/

namespace Verif.Engine
open Verif.Spec

variable {π : Type}

/-! ### Queues -/

/-- `data_tail` is the last node. -/
def Queue.Ok (q : Queue) : Prop := q.tail = q.items.length

theorem Queue.push_ok {q : Queue} (h : q.Ok) (d : Datum) :
    (q.push d).Ok ∧ (q.push d).items = q.items ++ [d] := by
  unfold Queue.Ok at *
  simp only [Queue.push, h, List.take_length]
  simp

theorem Queue.pushAll_ok {q : Queue} (h : q.Ok) (ds : List Datum) :
    (q.pushAll ds).Ok ∧ (q.pushAll ds).items = q.items ++ ds := by
  unfold Queue.pushAll
  induction ds generalizing q with
  | nil => simp [h]
  | cons d ds ih =>
    obtain ⟨h1, h2⟩ := Queue.push_ok h d
    obtain ⟨h3, h4⟩ := ih h1
    simp only [List.foldl_cons]
    refine ⟨h3, ?_⟩
    rw [h4, h2]; simp

theorem Queue.pushAll_eq {q : Queue} (h : q.Ok) (ds : List Datum) :
    q.pushAll ds = ⟨q.items ++ ds, (q.items ++ ds).length⟩ := by
  obtain ⟨h1, h2⟩ := Queue.pushAll_ok h ds
  have : (q.pushAll ds) = ⟨(q.pushAll ds).items, (q.pushAll ds).tail⟩ := rfl
  rw [this, h1, h2]

theorem Queue.listFree_ok {q : Queue} (h : q.Ok) (b : Nat) :
    (q.listFree b).Ok ∧ (q.listFree b).items = q.items.drop (b - 1) := by
  unfold Queue.Ok Queue.listFree at *
  simp only [List.length_drop, h]
  refine ⟨trivial, ?_⟩
  by_cases hb : b - 1 ≤ q.items.length
  · rw [Nat.min_eq_left hb]
  · rw [Nat.min_eq_right (by omega), List.drop_of_length_le (Nat.le_refl _),
      List.drop_of_length_le (by omega)]

/-! ### Automata -/

theorem walk_append (c : Codec π) (o : Nat) (u v : List Nat) :
    walk c o (u ++ v) = (walk c o u).bind (fun o' => walk c o' v) := by
  induction u generalizing o with
  | nil => simp [walk]
  | cons a u ih =>
    simp only [List.cons_append, walk]
    split
    · rfl
    · exact ih _

theorem walk_one (c : Codec π) (o a : Nat) :
    walk c o [a] = if c.next o a = 0 then none else some (c.next o a) := by
  simp [walk]

theorem walk_snoc {c : Codec π} {u : List Nat} {o : Nat} (h : walk c 0 u = some o) (a : Nat) :
    walk c 0 (u ++ [a]) = if c.next o a = 0 then none else some (c.next o a) := by
  rw [walk_append, h]; simp [walk_one]

theorem extendable_iff (S : Rules Nat (List Datum)) (p : List Nat) :
    extendable S p = true ↔ ∃ r ∈ S, p <+: r.1 ∧ r.1 ≠ p := by
  simp [extendable, List.any_eq_true]

theorem Represents.dead {c : Codec π} {S : Rules Nat (List Datum)} (hc : Represents c S)
    {p : List Nat} (hp : p ≠ []) (h : walk c 0 p = none) : ∀ r ∈ S, ¬ p <+: r.1 := by
  intro r hr hpre
  have := (hc.path p hp).2 ⟨r, hr, hpre⟩
  simp [h] at this

theorem nodeStatus_ne_deadend (S : Rules Nat (List Datum)) (p : List Nat) :
    nodeStatus S p ≠ .deadend ∧ nodeStatus S p ≠ .subroutine ∧ nodeStatus S p ≠ .submatchSubroutine
      ∧ nodeStatus S p ≠ .nomatch := by
  unfold nodeStatus
  split
  · simp
  · split <;> simp

/-! ### Local runs -/

/-- Program points inside a phase. -/
def PC.isLocal : PC → Bool
  | .fromOuter | .fromInner | .fromSw | .fromDead | .interOuter | .interSw | .interDead
  | .toOuter | .toSw | .toDead => true
  | _ => false

/-- At least one local step from `(pc, l)`, ending with locals `l'` and control `ctl`. -/
inductive LReach (s : Static π) : PC → Loc π → Loc π → Ctl → Prop
  | one {pc l l' ctl} : pc.isLocal = true → localStep s pc l = (l', ctl) → LReach s pc l l' ctl
  | cons {pc l l1 pc1 l' ctl} : pc.isLocal = true → localStep s pc l = (l1, .goto pc1) →
      LReach s pc1 l1 l' ctl → LReach s pc l l' ctl

theorem LReach.trans {s : Static π} {pc pc1 : PC} {l l1 l' : Loc π} {ctl : Ctl}
    (h1 : LReach s pc l l1 (.goto pc1)) (h2 : LReach s pc1 l1 l' ctl) : LReach s pc l l' ctl := by
  generalize hc : Ctl.goto pc1 = c1 at h1
  induction h1 with
  | one hl hs => subst hc; exact .cons hl hs h2
  | cons hl hs _ ih => exact .cons hl hs (ih h2 hc)

/-! ### Non-empty data -/

theorem nonEmpty_append (a b : List Datum) : nonEmpty (a ++ b) = nonEmpty a ++ nonEmpty b := by
  simp [nonEmpty]

theorem nonEmpty_of_all {ds : List Datum} (h : ∀ d ∈ ds, d ≠ []) : nonEmpty ds = ds := by
  unfold nonEmpty
  rw [List.filter_eq_self]
  intro d hd
  have := h d hd
  cases d <;> simp_all

theorem flatten_nonEmpty (ds : List Datum) : (nonEmpty ds).flatten = ds.flatten := by
  induction ds with
  | nil => rfl
  | cons d ds ih =>
    cases d with
    | nil => simp [nonEmpty] at ih ⊢; exact ih
    | cons a d => simp [nonEmpty] at ih ⊢; exact ih

theorem nonEmpty_nonEmpty (ds : List Datum) : nonEmpty (nonEmpty ds) = nonEmpty ds := by
  simp [nonEmpty]

theorem mem_nonEmpty {ds : List Datum} {d : Datum} : d ∈ nonEmpty ds ↔ d ∈ ds ∧ d ≠ [] := by
  simp [nonEmpty]

@[simp] theorem nonEmpty_nil : nonEmpty [] = [] := rfl

theorem nonEmpty_cons_nil (ds : List Datum) : nonEmpty ([] :: ds) = nonEmpty ds := by
  simp [nonEmpty]

theorem nonEmpty_cons {d : Datum} (h : d ≠ []) (ds : List Datum) :
    nonEmpty (d :: ds) = d :: nonEmpty ds := by
  cases d with
  | nil => exact absurd rfl h
  | cons a d => simp [nonEmpty]

end Verif.Engine
