import Verif.Model.Automaton
/-
What is asked of a codec so that a conversion using it comes to its end.
-/
namespace Verif.Engine

variable {π : Type}

/-- A state of the automaton of a codec that can be reached from its start. -/
def Visited (c : Codec π) (o : Nat) : Prop := ∃ u, walk c 0 u = some o

/-- The status of a state at which the callback is called. -/
def Status.calls (st : Status) : Prop := st = .subroutine ∨ st = .submatchSubroutine

/-- What is asked of a callback `cbconv` when it is called on a datum (in a FROM phase, on a byte of it): it appends data to the
output of its phase, changes the private data and sets the status; in a FROM phase it moves on inside the datum, and to
its end only when it wants more.  It answers SUBMATCH only if `lone`. -/
def ConvOk (t : PType) (lone : Prop) (conv : Loc π → Loc π) : Prop :=
  ∀ l : Loc π, 1 ≤ l.ph.curr → l.ph.curr ≤ l.prev.items.length → (t = .from_ → l.ph.i < (l.prev.get l.ph.curr).length) →
    ∃ ds priv status i, conv l = { l with ph := { l.ph with q := l.ph.q.pushAll ds, priv := priv, status := status, i := i } } ∧
      (status ∈ [Status.cont, .deadend, .match_, .nextphase] ∨ (status = .submatch ∧ lone)) ∧
      (t = .from_ → l.ph.i ≤ i ∧ (i < (l.prev.get l.ph.curr).length ∨ (status = .cont ∧ i = (l.prev.get l.ph.curr).length)))

/-- What is asked of a codec of a phase of type `t`; `lone` says that it is the only codec of an INTER or TO phase.  Its states have
no other status than the table compiler writes; a rule that is the beginning of a longer one has data, unless `lone`; its
callback, if some state calls it, is as above; `cbflush` appends data and changes the private data
(and the status, which does not matter). -/
structure Proper (t : PType) (lone : Prop) (c : Codec π) : Prop where
  kinds : ∀ o, Visited c o → c.status o ∈ [Status.cont, .deadend, .match_, .submatch, .subroutine, .submatchSubroutine]
  data : ∀ o, Visited c o → c.status o = .submatch → c.data o ≠ [] ∨ lone
  conv : (∃ o, Visited c o ∧ (c.status o).calls) → ConvOk t lone c.conv
  flush : lone → ∀ f, c.flush = some f → ∀ l : Loc π, ∃ ds priv status, f l = { l with ph := { l.ph with q := l.ph.q.pushAll ds, priv := priv, status := status } }

/-- The phases of an instance are well behaved: their codecs are, and no FROM phase follows a FROM phase. -/
structure Orderly (st : Nat → Static π) (n : Nat) : Prop where
  codecs : ∀ k, 1 ≤ k → k ≤ n → ∀ j, j ≤ (st k).codecn →
    Proper (st k).type ((st k).type ≠ .from_ ∧ (st k).codecn = 0) ((st k).codecs j)
  apart : ∀ k, 1 ≤ k → k < n → (st (k + 1)).type = .from_ → (st k).type ≠ .from_

end Verif.Engine
