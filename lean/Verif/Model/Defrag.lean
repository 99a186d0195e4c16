import Verif.Model.Inter
/-
The codec /repo/modules/inter/BIG5-DEFRAG.c (table `* ?`).

Simplifications: `dup_data_rt` copies the link to the next datum of the phase before, and the branch at 60-64 leaves it in the
list when no sequence was queued; it is taken to be NULL, as it is when the phases before hand on their data one by one.  The byte
behind a datum of length 1 (`data[1]` at 36) is taken to be at most 7F.
-/
namespace Verif.Defrag
open Verif.Spec (Handler Datum)

/-- `struct my_s`: the first byte held (`f`, `p`) with the sequences queued (`q`), if any; BIG5-DEFRAG.c:3-8 -/
abbrev Held := Option (Datum × List Datum)

/-- `data[0]==0x3 && data[1]>0x7f`, BIG5-DEFRAG.c:36 -/
def lead : Datum → Bool
  | a :: b :: _ => a == 3 && decide (b > 0x7f)
  | _ => false

/-- `cbconv`, BIG5-DEFRAG.c:29-78 -/
def defrag : Handler Held where
  act := fun t d => match t with
    | none => if lead d then some (some (d, []), [], true) else some (none, [d], false)
    | some (p, q) =>
      if d.head? = some 0x1b then some (some (p, q ++ [d]), [], true)
      else some (none, p :: d :: q, false)

end Verif.Defrag
