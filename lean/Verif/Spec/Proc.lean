import Verif.Spec.Session

/-
Stream processors: what a phase of a conversion does to the whole list of data it receives, whatever its
codecs are (tables, callbacks, decoding machines), and chains of them.
-/

namespace Verif.Spec

/-- A stream processor.  `π` is the type of the private data of a codec. -/
structure Proc (π : Type) where
  /-- what comes out -/
  out : List Datum → List Datum
  /-- does it read bytes (a decoder) rather than data? -/
  dec : Bool := false
  /-- decoding errors counted -/
  inErrors : List Datum → Nat := fun _ => 0
  /-- encoding errors counted -/
  outErrors : List Datum → Nat := fun _ => 0
  /-- inputs for which this description holds -/
  ok : List Datum → Prop := fun _ => True
  /-- private data (by codec) in the end -/
  fin : List Datum → (Nat → π) → Prop := fun _ _ => True

variable {π : Type}

/-- Output of a chain. -/
def runProcs : List (Proc π) → List Datum → List Datum
  | [], ds => ds
  | p :: ps, ds => runProcs ps (p.out ds)

/-- Total decoding errors of a chain. -/
def runIn : List (Proc π) → List Datum → Nat
  | [], _ => 0
  | p :: ps, ds => p.inErrors ds + runIn ps (p.out ds)

/-- Total encoding errors of a chain. -/
def runOut : List (Proc π) → List Datum → Nat
  | [], _ => 0
  | p :: ps, ds => p.outErrors ds + runOut ps (p.out ds)

/-- Each processor gets input it is described for; nothing undecodable after the first. -/
def OkRest : List (Proc π) → List Datum → Prop
  | [], _ => True
  | p :: ps, ds => p.inErrors ds = 0 ∧ p.ok ds ∧ OkRest ps (p.out ds)

/-- As `OkRest`, but the first processor may meet undecodable input if it comes in one piece. -/
def OkAll : List (Proc π) → List Datum → Prop
  | [], _ => True
  | p :: ps, ds => (p.inErrors ds = 0 ∨ ds.length ≤ 1) ∧ p.ok ds ∧ OkRest ps (p.out ds)

/-- A table phase as a processor. -/
def Phase.proc (π : Type) (p : Phase) : Proc π where
  out := p.out
  dec := match p with | .decode _ => true | _ => false
  inErrors := p.inErrors
  outErrors := p.outErrors
  ok := EncodeOk p

end Verif.Spec
