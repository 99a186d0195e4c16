import Verif.Model.Ibm37Table
import Verif.Spec.Unicode
import Verif.Model.Automaton
/-
The codecs IBM-37: /repo/modules/from/IBM-37.txt and /repo/modules/to/IBM-37.txt.  Both are compiled tables without callbacks.
-/
namespace Verif.Ibm37
open Verif.Spec

/-- /repo/modules/from/IBM-37.txt : the lines as rules.  Some bytes have two lines; the first counts (C50). -/
def fromRules : Rules Nat (List (List Nat)) := reads.map fun r => ([r.1], [uniDatum r.2])

/-- /repo/modules/to/IBM-37.txt : the lines as rules. -/
def toRules : Rules (List Nat) (List (List Nat)) := writes.map fun r => ([uniDatum r.1], [[r.2]])

end Verif.Ibm37
