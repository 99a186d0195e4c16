import Verif.Model.Machine
/-
Model of the callback of /repo/modules/from/ANY.c.
-/
namespace Verif.Any
open Verif.Engine

/-- /repo/modules/from/ANY.c:48-58 : `cbconv`.  `data` is `r->data` (`013F` by default, nothing for DROP, otherwise the data given: :15-37); `counted` tells
whether there is a counter (argument ERROR).  The private data are the value of the counter.  (The counter may be IERR, the one the engine counts in;
here it is separate.) -/
def machine (data : List Datum) (counted : Bool) : Machine Nat where
  step := fun t _ => (if counted then t + 1 else t, data, some .nextphase)

/-- /repo/modules/from/ANY.txt : `* ?`. -/
def codec (data : List Datum) (counted : Bool) : Codec Nat := anyByte (machine data counted).conv

end Verif.Any
