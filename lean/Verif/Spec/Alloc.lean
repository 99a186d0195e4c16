/-
What a memory allocator promises.
-/
namespace Verif.Spec

/-- A block of memory in the hands of the caller. -/
structure Block where
  addr : Nat
  size : Nat
  /-- obtained from the system's `malloc` -/
  heap : Bool
  deriving DecidableEq, Repr

/-- Two address ranges have no byte in common. -/
def Apart (a n b m : Nat) : Prop := ∀ x, ¬ (a ≤ x ∧ x < a + n ∧ b ≤ x ∧ x < b + m)

/-- No two blocks share a byte. -/
def AllApart : List Block → Prop
  | [] => True
  | b :: bs => (∀ c ∈ bs, Apart b.addr b.size c.addr c.size) ∧ AllApart bs

end Verif.Spec
