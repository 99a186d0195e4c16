import Verif.Model.Big5EscTable
import Verif.Spec.Tokens
import Verif.Spec.Unicode
/-
The codecs BIG5-5C: /repo/modules/from/BIG5-5C.txt and /repo/modules/to/BIG5-5C.txt.
-/
namespace Verif.Big5Esc
open Verif.Spec (Rules uniDatum)

/-- /repo/modules/from/BIG5-5C.txt:2-88 -/
def fromRules : Rules Nat (List (List Nat)) := rows.map fun r => ([r.1, 0x5C, 0x5C], [uniDatum r.2])

/-- /repo/modules/to/BIG5-5C.txt:2-88 -/
def toRules : Rules (List Nat) (List (List Nat)) := rows.map fun r => ([uniDatum r.2], [[r.1, 0x5C, 0x5C]])

end Verif.Big5Esc
