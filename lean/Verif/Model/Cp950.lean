import Verif.Model.Machine
/-
Model of /repo/modules/from/CP950-UDA.c.
-/
namespace Verif.Cp950
open Verif.Engine

/-- `struct my_s`: /repo/modules/from/CP950-UDA.c:7-11 -/
structure Priv where
  h : Nat
  x : Nat
  y : Nat
  deriving DecidableEq, Repr

/-- One call of `cbconv`, on the byte at `i`: /repo/modules/from/CP950-UDA.c:27-89.  `u` is computed in `uint32_t` from
`int`s; `d-0x40` may be negative, but the sum never is (the smallest, for h=0x8F and d=0, is above 0xE000). -/
def step (r : Priv) (d : Nat) : Priv × List Datum × Status :=
  if r.h = 0 then
    if 0xFA ≤ d ∧ d ≤ 0xFE then (⟨d, 0xE000, 0xFA⟩, [], .cont)
    else if 0x8E ≤ d ∧ d ≤ 0xA0 then (⟨d, 0xE311, 0x8E⟩, [], .cont)
    else if 0x81 ≤ d ∧ d ≤ 0x8D then (⟨d, 0xEEB8, 0x81⟩, [], .cont)
    else if 0xC6 ≤ d ∧ d ≤ 0xC8 then (⟨d, 0xF672, 0xC6⟩, [], .cont)
    else (r, [], .deadend)
  else
    let b := r.h * 256 + d
    if (0xFA40 ≤ b ∧ b ≤ 0xFEFE) ∨ (0x8E40 ≤ b ∧ b ≤ 0xA0FE) ∨ (0x8140 ≤ b ∧ b ≤ 0x8DFE) ∨ (0xC6A1 ≤ b ∧ b ≤ 0xC8FE) then
      let u := r.x + 157 * (r.h - r.y) + (if d < 0x80 then d else d - 0x62 + 0x40) - 0x40
      ({ r with h := 0 }, [[1, u / 256 % 256, u % 256]], .nextphase)
    else ({ r with h := 0 }, [], .deadend)

/-- `cbconv` in the engine: it looks at one byte per call. -/
def conv (l : Loc Priv) : Loc Priv :=
  let j := l.ph.index
  let r := step (l.ph.priv j) ((l.prev.get l.ph.curr).getD l.ph.i 0)
  { l with ph := { l.ph with
      priv := fun k => if k = j then r.1 else l.ph.priv k, q := l.ph.q.pushAll r.2.1, status := r.2.2 } }

/-- The codec: table `* ?`. -/
def codec : Codec Priv := anyByte conv

end Verif.Cp950
