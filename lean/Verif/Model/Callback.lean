import Verif.Model.Machine
import Verif.Spec.Handler
/-
INTER and TO codecs whose `cbconv` looks at the datum under `curr` and sets the status to DEADEND (changing
nothing), NEXTPHASE or SUBMATCH, possibly after appending data.  Most of /repo/modules/inter and /repo/modules/to
are of this shape.
-/
namespace Verif.Engine
open Verif.Spec (Handler setPriv)

variable {π : Type}

/-- `cbconv` of such a codec. -/
def _root_.Verif.Spec.Handler.conv (h : Handler π) (l : Loc π) : Loc π :=
  match h.act (l.ph.priv l.ph.index) (l.prev.get l.ph.curr) with
  | none => { l with ph := { l.ph with status := .deadend } }
  | some (t, out, hold) => { l with ph := { l.ph with
      priv := setPriv l.ph.priv l.ph.index t
      q := l.ph.q.pushAll out
      status := if hold then .submatch else .nextphase } }

/-- `cbflush` of such a codec. -/
def _root_.Verif.Spec.Handler.cbflush (h : Handler π) (l : Loc π) : Loc π :=
  let r := h.flush (l.ph.priv l.ph.index)
  { l with ph := { l.ph with
      priv := setPriv l.ph.priv l.ph.index r.1
      q := l.ph.q.pushAll r.2 } }

/-- With the table `* ?`. -/
def _root_.Verif.Spec.Handler.anyCodec (h : Handler π) : Codec π := anyByte h.conv (some h.cbflush)

/-- With the table `01* ?`. -/
def _root_.Verif.Spec.Handler.uniCodec (h : Handler π) : Codec π := uniPrefix h.conv

end Verif.Engine
