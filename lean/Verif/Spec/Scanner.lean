import Verif.Spec.Proc
/-
Byte automata with output, as a description of decoders on input they accept.
-/
namespace Verif.Spec

/-- From a state and a byte: the next state, and the data put out if the byte ends a piece of input (`none`: the input
goes on); nothing if the byte is not accepted. -/
structure Scanner (Q : Type) where
  step : Q → Nat → Option (Q × Option (List Datum))
  /-- between two pieces of input -/
  rest : Q → Bool
  /-- the data put out when the input ends inside a piece; nothing if it must not end there -/
  last : Q → Option (List Datum) := fun _ => none

variable {Q : Type}

/-- The data put out for a whole input; `none` if it is not accepted or is cut off. -/
def Scanner.run (sc : Scanner Q) : Q → List Nat → Option (List Datum)
  | q, [] => if sc.rest q then some [] else sc.last q
  | q, b :: bs =>
    match sc.step q b with
    | none => none
    | some (q', o) => (sc.run q' bs).map (o.getD [] ++ ·)

/-- As a stream processor. -/
def Scanner.proc {π : Type} (sc : Scanner Q) (q : Q) : Proc π where
  out := fun ds => (sc.run q ds.flatten).getD []
  dec := true
  ok := fun ds => (sc.run q ds.flatten).isSome

end Verif.Spec
