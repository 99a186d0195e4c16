import Verif.Model.Inter
import Verif.Model.Machine
import Verif.Model.Escape
import Verif.Spec.Escape
/-
The log codecs /repo/modules/to/BSDCONV-LOG.c, /repo/modules/to/BSDCONV-OUTPUT.c and /repo/modules/from/BSDCONV-LOG.c (table `* ?` in all).

Simplifications: writing to the file never fails.  The flags of data are not part of the engine model: which flags the data to come have is
private data here, so that statements hold for any flags.
-/
namespace Verif.Log
open Verif.Spec (Handler Datum ascii)
open Verif.Engine (Machine)
open Verif.Escape (hex2)

/-- The flags of a datum: F_FREE and F_MARK, /repo/src/bsdconv.h:21-22 -/
structure Flags where
  free : Bool
  mark : Bool
  deriving DecidableEq, Repr

/-- to/BSDCONV-LOG.c:26-31, to/BSDCONV-OUTPUT.c:30-35 -/
def Flags.text (f : Flags) : List Nat :=
  if f.free || f.mark then
    ascii " (" ++ (if f.free then ascii " FREE" else []) ++ (if f.mark then ascii " MARK" else []) ++ ascii " )"
  else []

/-- The file written, and the flags of the data to come. -/
structure Logger where
  file : List Nat
  flags : Nat → Flags

/-- `cbconv` of to/BSDCONV-LOG.c:17-34 and to/BSDCONV-OUTPUT.c:22-37: no data are put out. -/
def log : Handler Logger where
  act := fun t d => some ({ file := t.file ++ d.flatMap hex2 ++ (t.flags 0).text ++ ascii "\n", flags := fun k => t.flags (k + 1) }, [], false)

/-- `cbconv` of from/BSDCONV-LOG.c:17-23; private data: the file. -/
def bytes : Machine (List Nat) where
  step := fun t b => (t ++ hex2 b ++ ascii "\n", [], some .nextphase)

end Verif.Log
