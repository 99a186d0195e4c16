import Verif.Model.Bsdconv
import Verif.Model.Normal
/-
Canonical composition: /repo/modules/inter/_NFC.c, table `* ?` (/repo/modules/inter/_NFC.txt).

The codec asks a conversion of its own, `_NFC-MAP,COUNT#ERR`, what a starter and a character combine to.  Here this is
a partial function `comb`: `comb s c = some x` when that conversion turns `s`, `c` into `x` without counting an error.
-/
namespace Verif.Engine
open Verif.Spec (Lens setPriv)

variable {π : Type}

/-- `struct my_s`, /repo/modules/inter/_NFC.c:5-13.  `on` is `status`; `starter` the datum and `ptr` the pointer to it;
`cls` is `ccc`; the list hanging off `pending_head` is `pending`.  `bad` is set when a datum is freed twice. -/
structure Nfc where
  on : Bool := false
  starter : Datum := []
  ptr : Ptr := .null
  cls : Int := 0
  pending : List Datum := []
  bad : Bool := false
  deriving DecidableEq, Repr

/-- `if(r->starter){ DATUM_FREE(ins, r->starter); }`: the pointer is kept. -/
def Nfc.release (t : Nfc) : Nfc :=
  match t.ptr with
  | .null => t
  | .live => { t with ptr := .freed }
  | .freed => { t with bad := true }

/-- `cbinit`, /repo/modules/inter/_NFC.c:26-39; `ccc` is left as it is. -/
def Nfc.init (t : Nfc) : Nfc := { t.release with on := false, pending := [] }

/-- `cbflush`, /repo/modules/inter/_NFC.c:184-210: the starter and what waits behind it. -/
def Nfc.flush (t : Nfc) : Nfc × List Datum :=
  if t.on then ({ t with on := false, ptr := .null, pending := [] }, t.starter :: t.pending) else (t, [])

/-- What `cbconv` did besides changing its private data. -/
inductive NfcAct
  /-- `status=DEADEND` -/
  | dead
  /-- appended `em`, put `back` into the list of the previous phase right behind `curr`, `status=SUBMATCH` -/
  | hold (em back : List Datum)
  /-- appended `em`, `status=NEXTPHASE` -/
  | pass (em : List Datum)
  deriving DecidableEq, Repr

/-- `cbconv`, /repo/modules/inter/_NFC.c:41-168, on the datum `d` under `curr` (never empty).  The combining class is
found by the same search as in _NF-ORDER (lines 57-73). -/
def Nfc.step (comb : Datum → Datum → Option Datum) (t : Nfc) (d : Datum) : Nfc × NfcAct :=
  if d.head? = some 1 then
    let c := Inter.ccc d
    if t.on = false then                                             -- lines 75-86
      let t := { t with cls := 0 }
      if c = 0 then ({ t.release with on := true, starter := d, ptr := .live }, .hold [] [])
      else (t, .dead)
    else if c = 0 then                                               -- lines 88-116
      let t := { t with cls := 0 }
      let next := ({ t.flush.1 with on := true, starter := d, ptr := .live }, NfcAct.hold t.flush.2 [])
      if t.pending = [] then
        match comb t.starter d with
        | some x => ({ t with starter := x, ptr := .live }, .hold [] [])
        | none => next
      else next
    else if c ≤ t.cls then                                           -- lines 118-122
      ({ t with cls := c, pending := t.pending ++ [d] }, .hold [] [])
    else match comb t.starter d with                                 -- lines 123-155
      | some x => ({ t with starter := x, ptr := .live, cls := 0, pending := [] }, .hold [] t.pending)
      | none => ({ t with cls := c, pending := t.pending ++ [d] }, .hold [] [])
  else                                                               -- lines 161-167
    let t := { t with cls := 0 }
    (t.flush.1, .pass (t.flush.2 ++ [d]))

/-- `t=curr->next; curr->next=pending; pending_tail->next=t; while(data_tail->next) data_tail=data_tail->next`,
/repo/modules/inter/_NFC.c:138-147: put `ds` behind the entry at index `k`. -/
def Queue.insertAfter (q : Queue) (k : Nat) (ds : List Datum) : Queue :=
  if ds = [] then q else ⟨q.items.take k ++ ds ++ q.items.drop k, (q.items.take k ++ ds ++ q.items.drop k).length⟩

/-- `cbconv` as the engine sees it. -/
def nfcConv (e : Lens π Nfc) (comb : Datum → Datum → Option Datum) (l : Loc π) : Loc π :=
  let r := (e.get (l.ph.priv l.ph.index)).step comb (l.prev.get l.ph.curr)
  let priv := setPriv l.ph.priv l.ph.index (e.put r.1 (l.ph.priv l.ph.index))
  match r.2 with
  | .dead => { l with ph := { l.ph with priv := priv, status := .deadend } }
  | .hold em back => { l with
      prev := l.prev.insertAfter l.ph.curr back
      ph := { l.ph with priv := priv, q := l.ph.q.pushAll em, status := .submatch } }
  | .pass em => { l with ph := { l.ph with priv := priv, q := l.ph.q.pushAll em, status := .nextphase } }

/-- `cbflush` as the engine sees it. -/
def nfcFlush (e : Lens π Nfc) (l : Loc π) : Loc π :=
  let r := (e.get (l.ph.priv l.ph.index)).flush
  { l with ph := { l.ph with
      priv := setPriv l.ph.priv l.ph.index (e.put r.1 (l.ph.priv l.ph.index))
      q := l.ph.q.pushAll r.2, status := .nextphase } }

/-- The codec. -/
def nfcCodec (e : Lens π Nfc) (comb : Datum → Datum → Option Datum) : Codec π :=
  anyByte (nfcConv e comb) (some (nfcFlush e))

end Verif.Engine
