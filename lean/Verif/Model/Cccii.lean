import Verif.Model.CcciiTable
import Verif.Model.Automaton
/-
The codecs CCCII (Chinese Character Code for Information Interchange, three bytes to the character, no ASCII): /repo/modules/from/CCCII.txt and
/repo/modules/to/CCCII.txt, compiled tables without callbacks.
-/
namespace Verif.Cccii
open Verif.Spec

/-- /repo/modules/from/CCCII.txt : the lines as rules, sorted. -/
def fromRules : Rules Nat (List (List Nat)) := reads.pairs.map fun r => (beBytes r.1, [uniDatum r.2])

/-- /repo/modules/to/CCCII.txt : the lines that count as rules, sorted. -/
def toRules : Rules (List Nat) (List (List Nat)) := writes.pairs.map fun r => ([uniDatum r.1], [beBytes r.2])

end Verif.Cccii
