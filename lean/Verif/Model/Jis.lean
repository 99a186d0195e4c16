import Verif.Model.Machine
/-
Model of the callback of /repo/modules/from/_JIS.c.
-/
namespace Verif.Jis
open Verif.Engine

/-- `MODE_ASCII`, ..: /repo/modules/from/_JIS.c:7-12 -/
inductive Mode
  | ascii | jis0201 | jis0208 | jis0212
  deriving DecidableEq, Repr

/-- `state`: 0, 0x1B, 0x1B24, 0x1B28, 0x1B2824.  /repo/modules/from/_JIS.c:16 -/
inductive Esc
  | none | esc | dollar | paren | parenDollar
  deriving DecidableEq, Repr

/-- `struct my_s` without the three codecs: /repo/modules/from/_JIS.c:14-21.  `cstate` is the offset of the node `read_state` was called with. -/
structure Priv where
  mode : Mode
  esc : Esc
  cstate : Nat
  deriving DecidableEq, Repr

/-- /repo/modules/from/_JIS.c:23-45 : `cbcreate`.  `cstate` is not set there; it is not used before it is.  There is no `cbinit`. -/
def Priv.fresh : Priv := ⟨.ascii, .none, 0⟩

/-- The three codecs loaded by `cbcreate`. -/
structure Codecs where
  jis0201 : Codec Unit
  jis0208 : Codec Unit
  jis0212 : Codec Unit

/-- /repo/modules/from/_JIS.c:73-86 : the codec of the mode. -/
def Codecs.of (T : Codecs) : Mode → Option (Codec Unit)
  | .ascii => Option.none
  | .jis0201 => some T.jis0201
  | .jis0208 => some T.jis0208
  | .jis0212 => some T.jis0212

/-- /repo/modules/from/_JIS.c:55-180 : one call of `cbconv`, which looks at one byte and returns.  `get_offset` and `read_state` are `next` and the
offset itself; offset 0 (no transition) is the root. -/
def step (T : Codecs) (t : Priv) (d : Nat) : Priv × List Datum × Option Status :=
  match t.esc with
  | .none =>
    if d = 0x1B then ({ t with esc := .esc }, [], some .cont) else
    match T.of t.mode with
    | Option.none => (t, [], some .deadend)
    | some c =>
      let o := c.next t.cstate d
      if c.status o = .match_ then ({ t with cstate := 0 }, c.data o, some .nextphase)
      else ({ t with cstate := o }, [], some (c.status o))
  | .esc =>
    if d = 0x24 then ({ t with esc := .dollar }, [], some .cont)
    else if d = 0x28 then ({ t with esc := .paren }, [], some .cont)
    else (t, [], some .deadend)
  | .dollar =>
    if d = 0x40 then (⟨.jis0208, .none, 0⟩, [], some .nextphase)
    else if d = 0x42 then (⟨.jis0208, .none, 0⟩, [], some .nextphase)
    else (t, [], some .deadend)
  | .paren =>
    if d = 0x24 then ({ t with esc := .parenDollar }, [], some .cont)
    else if d = 0x42 then ({ t with esc := .none, mode := .ascii }, [], some .nextphase)
    else if d = 0x49 then (⟨.jis0201, .none, 0⟩, [], some .nextphase)
    else if d = 0x4A then (⟨.jis0201, .none, 0⟩, [], some .nextphase)
    else (t, [], some .deadend)
  | .parenDollar =>
    if d = 0x44 then (⟨.jis0212, .none, 0⟩, [], some .nextphase)
    else (t, [], some .deadend)

/-- `cbconv`, called once a byte: /repo/modules/from/_JIS.c:55-180 -/
def machine (T : Codecs) : Machine Priv where
  step := step T

/-- /repo/modules/from/_JIS.txt : `* ?`. -/
def codec (T : Codecs) : Codec Priv := anyByte (machine T).conv

end Verif.Jis
