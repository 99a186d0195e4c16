import Verif.Model.MkTable
import Verif.Spec.Codec
/-
The EBCDIC encoders and decoders with shift codes: /repo/modules/to/EBCDIC.c and /repo/modules/from/EBCDIC.c, included by
IBM-930.c, IBM-933.c, IBM-935.c, IBM-937.c and IBM-939.c of the same directories.
-/
namespace Verif.Engine
open Verif.Spec (Lens setPriv Rules)
open Verif.MkTable (Rule compiled)

variable {π : Type}

/-- `cbconv`, /repo/modules/to/EBCDIC.c:46-101.  `data` is the data of the table's states, the private data tells whether
the output is in double-byte state.  `data.len` is the length of the first datum of the rule (0 for none).  The flag
`F_LOOPBACK` that the engine has set on the way is not cleared.  `RESET` also sets the status, which is then overwritten. -/
def ebcdicConv (e : Lens π Bool) (data : Nat → List Datum) (l : Loc π) : Loc π :=
  let j := l.ph.index
  let ds := data l.ph.st
  let n := (ds.headD []).length
  let t := e.get (l.ph.priv j)
  let r : Bool × List Datum :=
    if 1 < n ∧ t = false then (true, [[0x0E]])
    else if n = 1 ∧ t = true then (false, [[0x0F]])
    else (t, [])
  let priv := setPriv l.ph.priv j (e.put r.1 (l.ph.priv j))
  let q := (l.ph.q.pushAll r.2).pushAll ds
  if r.1 then
    { l with
      prev := l.prev.listFree (l.ph.curr + 1)
      ph := { l.ph with
        priv := priv, q := q, consumed := 0, fMatch := true, fPending := true, matchData := []
        bak := l.ph.curr + 1, curr := 0, index := 0, offset := 0, st := 0, status := .noopNext } }
  else
    { l with ph := { l.ph with
        priv := priv, q := q, fPending := (if t then false else l.ph.fPending), status := .nextphase } }

/-- `cbflush`, /repo/modules/to/EBCDIC.c:21-39 -/
def ebcdicFlush (e : Lens π Bool) (l : Loc π) : Loc π :=
  let j := l.ph.index
  { l with ph := { l.ph with
    fPending := false
    q := if e.get (l.ph.priv j) then l.ph.q.push [0x0F] else l.ph.q
    priv := setPriv l.ph.priv j (e.put false (l.ph.priv j))
    status := .nextphase } }

/-- `cbinit`, /repo/modules/to/EBCDIC.c:16-19, /repo/modules/from/EBCDIC.c:15-18 -/
def ebcdicInit (_ : Bool) : Bool := false

/-- The encoder with table `c`. -/
def ebcdicEncoder (e : Lens π Bool) (c : Codec π) : Codec π :=
  { c with conv := ebcdicConv e c.data, flush := some (ebcdicFlush e) }

/-- `cbconv` of the decoder, /repo/modules/from/EBCDIC.c:25-54.  The private data tells whether the input is in double-byte
state. -/
def ebcdicReadConv (e : Lens π Bool) (data : Nat → List Datum) (l : Loc π) : Loc π :=
  let j := l.ph.index
  let c := (data l.ph.st).headD []
  let put := fun t => setPriv l.ph.priv j (e.put t (l.ph.priv j))
  if c = [0x01, 0x0E] then { l with ph := { l.ph with priv := put true, status := .nextphase } }
  else if c = [0x01, 0x0F] then { l with ph := { l.ph with priv := put false, status := .nextphase } }
  else if e.get (l.ph.priv j) = false then { l with ph := { l.ph with status := .match_ } }
  else { l with ph := { l.ph with status := .submatch } }

/-- The decoder with table `c`; there is no `cbflush`. -/
def ebcdicDecoder (e : Lens π Bool) (c : Codec π) : Codec π :=
  { c with conv := ebcdicReadConv e c.data }

/-- The lines of a table file whose rules are for single strings; `cb` tells which of them call the callback. -/
def markedLines (cb : List Nat → Bool) (T : Rules Nat Datum) : List Rule :=
  T.map fun r => { pat := r.1.map fun c => (c, c), cb := cb r.1, dat := r.2 }

/-- The lines of a table file of an encoder, each `pattern ?code`: /repo/modules/to/IBM-930.txt etc. -/
def encoderLines (T : Rules Nat Datum) : List Rule := markedLines (fun _ => true) T

/-- The lines of a table file of a decoder: rules for one byte call the callback, rules for two bytes do not:
/repo/modules/from/IBM-930.txt etc. -/
def decoderLines (T : Rules Nat Datum) : List Rule := markedLines (fun p => p.length == 1) T

end Verif.Engine
