import Verif.Model.IbmMixedTable
import Verif.Model.Ebcdic
/-
The code pages IBM-930, IBM-933, IBM-935, IBM-937 and IBM-939: the rule files of /repo/modules/from and /repo/modules/to with the callbacks of
EBCDIC.c.
-/
namespace Verif.IbmMixed
open Verif.Spec

/-- A code page: the tables, the codes that are not what their character is written as, and the characters that are written with the code of
another character. -/
structure Page where
  set : Charset
  lost : List Nat
  alt : List Nat

/-- /repo/modules/from/IBM-930.txt etc.: the lines as rules. -/
def fromRules (p : Page) : Rules Nat Datum := p.set.reads.pairs.map fun r => (beBytes r.1, uniDatum r.2)

/-- /repo/modules/to/IBM-930.txt etc.: the lines as rules. -/
def toRules (p : Page) : Rules Nat Datum := p.set.writes.pairs.map fun r => (uniDatum r.1, beBytes r.2)

/-- /repo/modules/from/IBM-930.c, IBM-933.c, IBM-935.c, IBM-937.c, IBM-939.c and the same names in /repo/modules/to -/
def pages : List Page := [⟨ibm930, lost930, alt930⟩, ⟨ibm933, lost933, alt933⟩, ⟨ibm935, lost935, alt935⟩, ⟨ibm937, lost937, alt937⟩,
  ⟨ibm939, lost939, alt939⟩]

end Verif.IbmMixed
