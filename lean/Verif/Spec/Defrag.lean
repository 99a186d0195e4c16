import Verif.Spec.Handler
/-
Specification: two-byte characters with control sequences between their bytes.
-/
namespace Verif.Spec

/-- The first byte of a two-byte character: a datum `03 xx` with `xx` above 7F. -/
def isLead (d : Datum) : Bool := match d with | 3 :: b :: _ => decide (0x7F < b) | _ => false

/-- A control sequence. -/
def isSequence (d : Datum) : Bool := d.head? == some 0x1B

/-- A stream cut into characters: single bytes and other data that are no first bytes, or a first byte with the sequences behind it and the second byte. -/
inductive Fragment
  | single (d : Datum)
  | double (lead : Datum) (between : List Datum) (trail : Datum)

/-- What such a piece may be. -/
def Fragment.Valid : Fragment → Prop
  | .single d => d ≠ [] ∧ isLead d = false
  | .double l b t => isLead l = true ∧ (∀ s ∈ b, isSequence s = true) ∧ t ≠ [] ∧ isSequence t = false

/-- As it comes in. -/
def Fragment.broken : Fragment → List Datum
  | .single d => [d]
  | .double l b t => l :: b ++ [t]

/-- As it should come out: the character first. -/
def Fragment.mended : Fragment → List Datum
  | .single d => [d]
  | .double l b t => l :: t :: b

end Verif.Spec
