import Verif.Spec.Proc
import Verif.Spec.Unicode

/-
Text as a list of code points, and what it means for a stream processor to decode from or encode to a given encoding.
-/

namespace Verif.Spec

variable {π : Type}

/-- A text as data. -/
def textData (cps : List Nat) : List Datum := cps.map uniDatum

/-- `P` decodes the encoding `enc` of the code points `valid`: cut in any way, the bytes of a text give the text, without errors. -/
structure Decodes (P : Proc π) (enc : Nat → List Nat) (valid : Nat → Prop) : Prop where
  dec : P.dec = true
  text : ∀ (cps : List Nat) (ds : List Datum), (∀ cp ∈ cps, valid cp) → ds.flatten = cps.flatMap enc →
    P.out ds = textData cps ∧ P.inErrors ds = 0 ∧ P.outErrors ds = 0 ∧ P.ok ds

/-- `P` encodes in `enc` the code points `takes`: a text of code points `valid` gives one datum per code point taken, its encoding; the others
are dropped and counted. -/
structure Encodes (P : Proc π) (enc : Nat → List Nat) (takes : Nat → Bool) (valid : Nat → Prop) : Prop where
  dec : P.dec = false
  text : ∀ (cps : List Nat), (∀ cp ∈ cps, valid cp) →
    P.out (textData cps) = (cps.filter takes).map enc ∧ P.inErrors (textData cps) = 0 ∧
    P.outErrors (textData cps) = (cps.filter fun cp => !takes cp).length ∧ P.ok (textData cps)

end Verif.Spec
