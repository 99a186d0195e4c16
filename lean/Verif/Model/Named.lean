import Verif.Model.NamedTable
import Verif.Model.Solve
import Verif.Spec.Unicode
import Verif.Spec.MkTable
/-
The codecs ASCII-NAMED-HTML-ENTITY: /repo/modules/from/ASCII-NAMED-HTML-ENTITY.txt (every line marked `!`) and /repo/modules/to/ASCII-NAMED-HTML-ENTITY.txt.
-/
namespace Verif.Named
open Verif.MkTable (Rule)
open Verif.Spec (Rules uniDatum)
open Verif.Solve (lit)

/-- `&name;` -/
def reference (n : List Nat) : List Nat := 38 :: n ++ [59]

/-- A line `!pattern data`, /repo/modules/from/ASCII-NAMED-HTML-ENTITY.txt -/
def refLine (n : List Nat) (d : List Nat) : Rule := { ci := true, pat := (reference n).map fun c => (c, c), dat := d }

/-- /repo/modules/from/ASCII-NAMED-HTML-ENTITY.txt:1-241 -/
def fromLines : List Rule := entities.map fun e => refLine (lit e.1) (uniDatum e.2)

/-- /repo/modules/to/ASCII-NAMED-HTML-ENTITY.txt:1-241 -/
def toRules : Rules (List Nat) (List (List Nat)) := entities.map fun e => ([uniDatum e.2], [reference (lit e.1)])

end Verif.Named
