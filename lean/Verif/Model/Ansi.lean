import Verif.Model.Machine
/-
Model of the callback of /repo/modules/from/ANSI-CONTROL.c.
-/
namespace Verif.Ansi
open Verif.Engine

/-- `struct my_s`: /repo/modules/from/ANSI-CONTROL.c:9-12.  `buf` are the bytes from `r->buf` up to `r->p`; `f` whether inside a sequence. -/
structure Priv where
  buf : List Nat
  f : Bool
  deriving DecidableEq, Repr

/-- /repo/modules/from/ANSI-CONTROL.c:21-25 : `cbinit`. -/
def Priv.clear : Priv := ⟨[], false⟩

/-- The tests for letters in /repo/modules/from/ANSI-CONTROL.c:42 (`char` is signed there; bytes from 80 on are no letters either way). -/
def ends (d : Nat) : Bool := (0x61 ≤ d && d ≤ 0x7A) || (0x41 ≤ d && d ≤ 0x4E) || (0x50 ≤ d && d ≤ 0x5A)

/-- /repo/modules/from/ANSI-CONTROL.c:33-65 : one call of `cbconv`, which looks at one byte and returns. -/
def step (t : Priv) (d : Nat) : Priv × List Datum × Option Status :=
  if t.f then
    let buf := t.buf ++ [d]
    if ends d || buf.length == 30 || (buf.length == 2 && d != 0x5B) then (⟨[], false⟩, [buf], some .nextphase)
    else (⟨buf, true⟩, [], some .cont)
  else if d = 0x1B then (⟨t.buf ++ [d], true⟩, [], some .cont)
  else (t, [], some .deadend)

/-- The callback; it is called once a byte. -/
def machine : Machine Priv := ⟨step⟩

/-- /repo/modules/from/ANSI-CONTROL.txt : `* ?`. -/
def codec : Codec Priv := anyByte machine.conv

end Verif.Ansi
