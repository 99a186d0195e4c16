import Verif.Model.Callback
import Verif.Spec.Codec
/-
inter/REPLACE: /repo/modules/inter/REPLACE.c, table `* ?` (/repo/modules/inter/REPLACE.txt).
-/
namespace Verif.Engine
open Verif.Spec (Lens setPriv)

variable {π : Type}

/-- `cbconv`, /repo/modules/inter/REPLACE.c:54-86.  The private data is the rest of the pattern `from` at `cursor`;
`pat` is the whole of it and `to` the replacement.  The comparison of lengths and then byte by byte
(REPLACE.c:63-75) is equality of lists.  A pattern is never empty (REPLACE.c:24-27); when the codec is given no
argument at all `cursor` is NULL and the C code dereferences it: the model then leaves everything as it is, so that
the engine never comes out of `inter_x`. -/
def replaceConv (e : Lens π (List Datum)) (pat to : List Datum) (l : Loc π) : Loc π :=
  let put := fun c => setPriv l.ph.priv l.ph.index (e.put c (l.ph.priv l.ph.index))
  match e.get (l.ph.priv l.ph.index) with
  | [] => l
  | x :: rest =>
    if l.prev.get l.ph.curr ≠ x then { l with ph := { l.ph with priv := put pat, status := .deadend } }
    else match rest with
      | [] => { l with ph := { l.ph with priv := put pat, q := l.ph.q.pushAll to, status := .nextphase } }
      | _ :: _ => { l with ph := { l.ph with priv := put rest, status := .cont } }

/-- The codec; there is no `cbflush`. -/
def replaceCodec (e : Lens π (List Datum)) (pat to : List Datum) : Codec π := anyByte (replaceConv e pat to)

/-- `cbinit`, /repo/modules/inter/REPLACE.c:49-52 -/
def replaceInit (pat : List Datum) (_ : List Datum) : List Datum := pat

end Verif.Engine
